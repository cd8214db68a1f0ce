import Verif.Xchg.JsonText
import Verif.Xchg.Message

/-!
# MVR-xchange messages as bytes (src/mvrxchange/mvrxchange_message.cpp:192-315, 437-508)

`Message.lean` models the messages as JSON values; here the values become the bytes of the body of a packet and back.
-/

namespace Verif.Xchg

/-- The bytes of a `std::string`; here one `Char` is one byte. -/
def toBytes (t : List Char) : List (BitVec 8) := t.map fun c => BitVec.ofNat 8 c.toNat

/-- See `toBytes`. -/
def ofBytes (b : List (BitVec 8)) : List Char := b.map fun x => Char.ofNat x.toNat

/-- mvrxchange_message.cpp:276-312: the type and the body of the packet. -/
def fromExternal (m : Msg) : Except Trouble (Nat × List (BitVec 8)) :=
  encode m >>= fun b =>
    match b with
    | .json j => j.dump >>= fun t => .ok (0, toBytes t)
    | .file f => .ok (1, f)
    | .other => .error .undefined

/-- mvrxchange_message.cpp:437-508 `ToExternalMessage` for a packet of type `type` with the body `body`.  A text that cannot
be parsed gives a "discarded" value (line 444: no exceptions), which is not an object.  `none`: the text has a number that
is not an integer of 64 bits, which is outside this model. -/
def toExternal (type : Nat) (body : List (BitVec 8)) : Option (Except Trouble Got) :=
  if type = 0 ∧ body ≠ [] then
    match parse (ofBytes body) with
    | .value j => some (decode (.json j))
    | .error => some (decode (.json .null))
    | .float => none
  else if type = 1 then some (decode (.file body))
  else some (decode .other)

end Verif.Xchg
