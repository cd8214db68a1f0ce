import Verif.Loan.Model

/-!
# C98: what an application has to keep to, and what it can expect

The interface says that a file is handed over in a buffer or by a path, and that the buffer is used if both are given
(IMediaRessourceVectorInterface.h:1981-1982).  It does not say who releases the buffer.
-/

namespace Verif.Loan

open Verif.Xchg

/-- No block has an address that is still to be given out. -/
def Heap.Ok (h : Heap) : Prop := ∀ p, h.next ≤ p → h.live p = none

/-- The answer is one that carries a file. -/
def ExtMsg.Carries (m : ExtMsg) : Prop := ∃ e f, m.msg = .requestRet true e f

/-- What an application did to the memory when it answered: nothing, and the answer has no buffer; or it made one new block, which
is the buffer of the answer, and the answer carries a file. -/
def Gave (h h' : Heap) (a : ExtMsg) : Prop :=
  (a.buffer = none ∧ h'.live = h.live ∧ h'.next = h.next) ∨
  (∃ b, a.Carries ∧ h' = (h.alloc b).1 ∧ a.buffer = some (h.alloc b).2 ∧ a.length ≤ b.length)

/-- An application that gives a new buffer with every file, and no buffer with other answers. -/
def Careful (app : App) : Prop := ∀ h g p, h.Ok → Gave h (app h g p).1 (app h g p).2

/-- The error is one of this memory: something is released twice or used after it was released. -/
def Bad.Memory : Bad → Prop
  | .freed => True
  | .stale => True
  | _ => False

/-- The packet that an answer should become: a file packet with the first bytes of the buffer; without a buffer a file packet with
the bytes of the file; for all other answers the text of the message.  `h` is the memory when the application has answered. -/
def Reply (d : Disk) (h : Heap) (a : ExtMsg) (r : Nat × List Byte) : Prop :=
  (∃ p b, a.Carries ∧ a.buffer = some p ∧ h.live p = some b ∧ r = (1, b.take a.length)) ∨
  (a.Carries ∧ a.buffer = none ∧ r = (1, readPath d a.path)) ∨
  (¬ a.Carries ∧ fromExternal a.msg = .ok r)

end Verif.Loan
