import Verif.Xchg.Buffer
import Verif.Xchg.JsonMessage

/-!
# Model of a conversation between two MVR-xchange stations

`/repo/src/mvrxchange/mvrxchange_session.cpp` (the side that is asked), `mvrxchange_client.cpp` (the side that asks) and
`CMVRxchangeService.cpp:210-278` `Send_message`.

`boost::asio` and the operating system are not modelled; what they do to one connection is a list of events, in any order and
in pieces of any size.  `async_read` into a buffer of `n` bytes stores every piece as it arrives and ends when all `n` bytes
are there or the connection fails; for `n = 0` it ends at once.
-/

namespace Verif.Xchg

/-- What happens on a connection.  After the end of the list nothing happens any more. -/
inductive Net
  | data (b : List Byte)   -- bytes arrive
  | fail                   -- end of the stream, reset, or the connection was closed

/-- How `async_read` ends; `waiting`: it has not ended. -/
inductive ReadEnd
  | full (rest : List Net)
  | broken
  | waiting

/-- `boost::asio::async_read` of `n` bytes into the memory of the packet at `off` (mvrxchange_session.cpp:29, 34;
mvrxchange_client.cpp:34-35, 51-52). -/
def readInto (p : Packet) (off n : Nat) : List Net → Except Fault (Packet × ReadEnd)
  | [] => .ok (p, if n = 0 then .full [] else .waiting)
  | .fail :: t => .ok (p, if n = 0 then .full (.fail :: t) else .broken)
  | .data b :: t =>
    if n = 0 then .ok (p, .full (.data b :: t))
    else if n ≤ b.length then do
      let p ← p.write off (b.take n)
      return (p, .full (.data (b.drop n) :: t))
    else do
      let p ← p.write off b
      readInto p (off + b.length) (n - b.length) t

/-! ### The side that is asked -/

/-- What became of a session. -/
inductive Served
  | waiting                                       -- it waits for more bytes
  | closed                                        -- closed; the application was not called
  | answered (asked : Got) (reply : List Byte)    -- the application was called once, its answer is written, closed
  | terminated (asked : Option Got)               -- an exception leaves the thread of the service: the program ends
  | undefined (asked : Option Got)                -- undefined behaviour
  | outside                                       -- the text has a number that is outside the model (`toExternal`)

/-- mvrxchange_session.cpp:49-51 with mvrxchange_message.cpp:272-314 `FromExternalMessage` and mvrxchange_session.cpp:67-80
`Deliver`: the bytes of the packet for a message of this type and body.  `version0` is the uninitialised version. -/
def packetBytes (e : Env) (version0 type : Nat) (body : List Byte) : Except Fault (List Byte) := do
  let p ← newPacket e version0
  send e { p with flag := magic, number := 0, count := 1, type := type } body

/-- mvrxchange_session.cpp:37-52: the packet is complete.  `handler` is the application behind `TCP_OnIncommingMessage`
(CMVRxchangeService.cpp:351-358; without a callback it gives the undefined message); its effects on the group are in `Service`.
`endpoint`: whether the operating system still knows the address of the peer (`remote_endpoint`, lines 43-44, throws when it
does not, because the peer has reset the connection). -/
def respond (e : Env) (version1 : Nat) (endpoint : Bool) (handler : Got → Msg) (p : Packet) : Except Fault Served := do
  let body ← p.body
  match toExternal p.type body with
  | none => return .outside
  | some (.error .thrown) => return .terminated none
  | some (.error .undefined) => return .undefined none
  | some (.ok got) =>
    if !endpoint then return .terminated none
    else
      match fromExternal (handler got) with
      | .error .thrown => return .terminated (some got)
      | .error .undefined => return .undefined (some got)
      | .ok (type, reply) => do
        let wire ← packetBytes e version1 type reply
        return .answered got wire

/-- mvrxchange_session.cpp:25-64 `DoRead`. -/
def serve (e : Env) (version0 version1 : Nat) (endpoint : Bool) (handler : Got → Msg) (net : List Net) : Except Fault Served := do
  let p ← newPacket e version0
  let (p, r) ← readInto p 0 headerLength net
  match r with
  | .waiting => return .waiting
  | .broken => return .closed
  | .full net => do
    let (ok, p) ← p.decodeHeader e
    if !ok then return .closed
    else do
      let (p, r) ← readInto p headerLength p.bodyLength net
      match r with
      | .waiting => return .waiting
      | .broken => return .closed
      | .full _ => respond e version1 endpoint handler p

/-! ### The side that asks -/

/-- One address a message is sent to: what the operating system and the peer do. -/
structure Line where
  resolved : Bool       -- `resolve` (mvrxchange_client.cpp:123) does not throw
  connected : Bool      -- within a second
  written : Bool        -- `async_write` of the whole packet ends without an error in time
  net : List Net        -- what comes back
  endpoint : Bool       -- `remote_endpoint` (line 65) does not throw

/-- The outcome for one address. -/
inductive Told
  | failed             -- `success` is false: the application hears nothing
  | packet (p : Packet)
  | thrown

/-- mvrxchange_client.cpp:20-142 `Connect`, `SendMessage`, `WriteMessage`, `ReadMessage`, `Run`, and
CMVRxchangeService.cpp:376-389.  An operation that does not end in time is cancelled, which is an error.  The result of
`DecodeHeader` (line 49) is not looked at. -/
def ask (e : Env) (version0 : Nat) (l : Line) : Except Fault Told := do
  let p ← newPacket e version0
  if !l.resolved then return .thrown
  else if !l.connected then return .failed
  else if !l.written then return .failed
  else do
    let (p, r) ← readInto p 0 headerLength l.net
    match r with
    | .full net => do
      let (_, p) ← p.decodeHeader e
      let (p, r) ← readInto p headerLength p.bodyLength net
      match r with
      | .full _ => if !l.endpoint then return .thrown else return .packet p
      | _ => return .failed
    | _ => return .failed

/-- What the application sees of `Send_message`: the answers given to its callback, in order, and how the call ended. -/
inductive Ending
  | done
  | thrown
  | undefined
  | outside

/-- CMVRxchangeService.cpp:261-273: the answers are awaited one after the other. -/
def await (e : Env) (version0 : Nat) : List Line → Except Fault (List Got × Ending)
  | [] => .ok ([], .done)
  | l :: ls => do
    match ← ask e version0 l with
    | .failed => await e version0 ls
    | .thrown => return ([], .thrown)
    | .packet p =>
      let body ← p.body
      match toExternal p.type body with
      | none => return ([], .outside)
      | some (.error .thrown) => return ([], .thrown)
      | some (.error .undefined) => return ([], .undefined)
      | some (.ok got) => do
        let (calls, ending) ← await e version0 ls
        return (got :: calls, ending)

/-- CMVRxchangeService.cpp:234-278: the packet is made once and sent to every address; the second result is the bytes every
peer gets. -/
def sendMessage (e : Env) (version0 version1 : Nat) (m : Msg) (lines : List Line) : Except Fault (List Got × Ending × List Byte) :=
  match fromExternal m with
  | .error .thrown => .ok ([], .thrown, [])
  | .error .undefined => .ok ([], .undefined, [])
  | .ok (type, body) => do
    let wire ← packetBytes e version0 type body
    let (calls, ending) ← await e version1 lines
    return (calls, ending, wire)

end Verif.Xchg
