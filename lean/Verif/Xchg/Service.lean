import Verif.Uuid.Model
import Verif.Str.Model
import Verif.Xchg.Message

/-!
# MVR-xchange service (src/mvrxchange/CMVRxchangeService.cpp)

Texts are `List Char`, one `Char` per byte.  Each critical section of the C++ code (a block holding `fMvrGroupMutex` or
`fQueryLocalServicesResult_mtx`) is one step; a JOIN message looks the station up and then updates the group in two
sections, and is one step here because the update depends on the state only through what the lookup returned.
-/

namespace Verif.Xchg

open Verif.Uuid Verif.Str

/-- mdns_cpp `Query_result`: one answer to an mDNS query. -/
structure Answer where
  serviceName : List Char
  hostname : List Char
  ipV4 : List (List Char)
  ipV6 : List (List Char)
  port : Nat
  txt : List Char
deriving DecidableEq

/-- IMediaRessourceVectorInterface.h:1990-2007 `ConnectToLocalServiceArgs`, the fields discovery fills in. -/
structure Station where
  service : List Char
  uuid : Words
  name : List Char
  ipV4 : List (List Char)
  ipV6 : List (List Char)
  port : Nat

/-- CMVRxchangeService.h:15-21 `MVRxchangeGroupMember`. -/
structure Member where
  ip : List (List Char)
  port : Nat
  name : List Char
  uuid : Words
deriving DecidableEq

/-- mvrxchange_prefix.h:43 `MVRXChange_Service`. -/
def serviceText : List Char := "_mvrxchange._tcp.local.".toList

/-- CMVRxchangeService.cpp:30-43 `FilterServiceName`: `[^a-zA-Z0-9\-_]` is removed. -/
def serviceChar (c : Char) : Bool :=
  (decide ('a' ≤ c) && decide (c ≤ 'z')) || (decide ('A' ≤ c) && decide (c ≤ 'Z')) ||
  (decide ('0' ≤ c) && decide (c ≤ '9')) || c == '-' || c == '_'

def filterServiceName (s : List Char) : List Char := s.filter serviceChar

/-- "ip:port", as CMVRxchangeService.cpp:501-503 builds it and `getServiceIPPort` returns it. -/
def ipPort (ip : List Char) (port : Nat) : List Char := ip ++ ':' :: natText port

/-- CMVRxchangeService.cpp:488-529, the decision for one answer; `own` are the addresses of our own sockets. -/
def accepts (own : List (List Char)) (out : List Answer) (a : Answer) : Bool :=
  !(out.any fun r => a.port == r.port && a.ipV4 == r.ipV4 && a.ipV6 == r.ipV6) &&
  !a.ipV4.isEmpty &&
  !(a.ipV4.any fun ip => own.any fun o => ipPort ip a.port == o) &&
  serviceText.isSuffixOf a.serviceName

/-- CMVRxchangeService.cpp:477-538 `mDNS_Filter_Queries`. -/
def filterQueries (own : List (List Char)) (answers : List Answer) : List Answer :=
  answers.foldl (fun out a => if accepts own out a then out ++ [a] else out) []

/-- CMVRxchangeService.cpp:46-70: the TXT record a station announces; the two lengths are cast to `uint8_t`. -/
def txtRecord (name : List Char) (uuid : Words) : List Char :=
  let t1 := "StationName=".toList ++ name
  let t2 := "StationUUID=".toList ++ convertToText (ofWords uuid.1 uuid.2.1 uuid.2.2.1 uuid.2.2.2)
  [Char.ofNat (t1.length % 256)] ++ t1 ++ [Char.ofNat (t2.length % 256)] ++ t2

/-- CMVRxchangeService.cpp:582-591: what one piece `t` of the record, whose first `=` is at `eq`, says about the name and
UUID found so far.  `rfind(..) == 0` looks for the last occurrence. -/
def takePiece (t : List Char) (eq : Nat) (found : List Char × List Char) : List Char × List Char :=
  if reverseFind t "StationName=".toList = some 0 then (t.drop (eq + 1), found.2)
  else if reverseFind t "StationUUID=".toList = some 0 then (found.1, t.drop (eq + 1))
  else found

/-- CMVRxchangeService.cpp:572-596, the `do … while` loop reading the TXT record at `ptr` with the name and UUID found so
far.  Outer `none`: still running after `fuel` rounds.  `substr` throws when its position is beyond the end.  Line 578
`continue` does not advance `ptr`. -/
def txtLoop (txt : List Char) : Nat → Nat → List Char × List Char → Option (Except Trouble (List Char × List Char))
  | 0, _, _ => none
  | fuel + 1, ptr, found =>
    let len := (txt.getD ptr '\x00').toNat % 256
    if txt.length < ptr + 1 then some (.error .thrown)
    else
      let t := (txt.drop (ptr + 1)).take len
      match findCh t '=' with
      | none => if ptr < txt.length then txtLoop txt fuel ptr found else some (.ok found)
      | some eq =>
        if ptr + (len + 1) < txt.length then txtLoop txt fuel (ptr + (len + 1)) (takePiece t eq found)
        else some (.ok (takePiece t eq found))

/-- `MVRxchangeString::operator=` (IMediaRessourceVectorInterface.h:1868-1882): at most 1023 bytes are kept. -/
def keep1023 (s : List Char) : List Char := (s.takeWhile (· ≠ '\x00')).take 1023

/-- CMVRxchangeService.cpp:550-601, one answer becomes one discovered station, `name` and `uuid` being what the TXT loop
found.  `strcpy` into the 1024-byte name cannot overflow, a TXT piece has at most 255 bytes.  An empty or unreadable UUID
leaves or gives zeros, see `convertFromTextMvr`. -/
def station (a : Answer) (name uuid : List Char) : Station :=
  { service := keep1023 a.hostname, uuid := (convertFromTextMvr uuid (0, 0, 0, 0)).value, name := name
    ipV4 := a.ipV4.map keep1023, ipV6 := a.ipV6.map keep1023, port := a.port }

/-- CMVRxchangeService.cpp:391-417, 419-441: the group member made from a discovered station. -/
def Station.member (s : Station) : Member := { ip := s.ipV4, port := s.port, name := s.name, uuid := s.uuid }

/-- CMVRxchangeService.cpp:391-417 `GetMembersOfService`. -/
def membersOf (name : List Char) (l : List Station) : List Member :=
  (l.filter fun s => s.service == name ++ '.' :: serviceText).map Station.member

/-- CMVRxchangeService.cpp:419-441 `GetSingleMemberOfService`: first station with this UUID, of any group. -/
def singleMember (u : Words) (l : List Station) : Option Member := (l.find? fun s => s.uuid == u).map Station.member

/-- CMVRxchangeService.cpp:177-188 `GetLocalServiceAt`: `.error .undefined` is reading beyond the vector, `none` an error
return. -/
def localServiceAt (l : List Station) (i : Nat) : Except Trouble (Option Station) :=
  if l.length < i then .ok none
  else match l[i]? with
    | some s => .ok (some s)
    | none => .error .undefined

/-- `std::vector<TXString>` comparison; texts compare without case (GSString.cpp:2203-2208). -/
def sameIps : List (List Char) → List (List Char) → Bool
  | [], [] => true
  | a :: l, b :: m => eqNoCase a b && sameIps l m
  | _, _ => false

/-- CMVRxchangeService.cpp:310-312: the same station address. -/
def sameAddress (a b : Member) : Bool := sameIps a.ip b.ip && a.port == b.port

/-- CMVRxchangeService.cpp:310-321: the first member with the address is replaced, or the member is added at the end. -/
def putMember (m : Member) : List Member → List Member
  | [] => [m]
  | x :: l => if sameAddress x m then m :: l else x :: putMember m l

/-- The state of the service: own sockets, discovered stations, group members and JOIN messages waiting for discovery. -/
structure Service where
  own : List (List Char)
  discovered : List Station
  initialised : Bool
  group : List Member
  pending : List Words

def Service.start : Service := ⟨[], [], false, [], []⟩

/-- What can happen to the service.  Discovery results are given as stations. -/
inductive Event
  | tick (found : List Station)                       -- mDNS_Client_Task
  | join (u : Words)                                  -- MVR_JOIN arrives
  | posted (found : List Station)                     -- the task posted for the oldest waiting JOIN runs
  | leave (u : Words)                                 -- MVR_LEAVE arrives
  | connect (service : List Char) (own : List (List Char)) (found : List Station)
  | disconnect

/-- CMVRxchangeService.cpp:46-147, 299-347, 540-618.  In `connect` discovery runs only the first time. -/
def Service.step (s : Service) : Event → Service
  | .tick found => { s with discovered := found, initialised := true }
  | .join u =>
    match singleMember u s.discovered with
    | some m => { s with group := putMember m s.group }
    | none => { s with pending := s.pending ++ [u] }
  | .posted found =>
    match s.pending with
    | [] => s
    | u :: rest =>
      let s := { s with discovered := found, initialised := true, pending := rest }
      match singleMember u found with
      | some m => { s with group := s.group ++ [m] }
      | none => s
  | .leave u =>
    match singleMember u s.discovered with
    | some _ => s
    | none => { s with group := s.group.filter fun m => m.uuid != ((0, 0, 0, 0) : Words) }
  | .connect name own found =>
    let d := if s.initialised then s.discovered else found
    { s with own := own, discovered := d, initialised := true, group := membersOf (filterServiceName name) d }
  | .disconnect => { s with own := [] }

/-- CMVRxchangeService.cpp:210-255 `Send_message`: the addresses the packet is sent to, in order.  `filter` is
`ForStationsUUID` of a COMMIT, `FromStationUUID` of a REQUEST, and empty otherwise. -/
def targets (group : List Member) (filter : List Words) : List (List Char × Nat) :=
  (group.filter fun m => filter.isEmpty || filter.contains m.uuid).flatMap fun m => m.ip.map fun ip => (ip, m.port)

/-- CMVRxchangeService.cpp:212-231: whom a message is addressed to. -/
def recipients : Msg → List Words
  | .commit c => c.forStations
  | .request _ from_ => from_
  | _ => []

end Verif.Xchg
