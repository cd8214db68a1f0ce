import Verif.Mdns.Collect

/-!
# Model: a station announces itself and searches for others (`/repo/src/mvrxchange/CMVRxchangeService.cpp:46-88, 539-617`)
-/

namespace Verif.Mdns

open Verif.Xchg

/-- Characters of `Verif.Xchg` as bytes. -/
def bytesOf (l : List Char) : Bytes := l.map fun c => BitVec.ofNat 8 c.toNat

/-- What a station announces: IMediaRessourceVectorInterface.h:1990-2007 `ConnectToLocalServiceArgs`, and the port of its server. -/
structure Announced where
  group : List Char
  name : List Char
  uuid : Words
  port : Nat

/-- CMVRxchangeService.cpp:53, 80-85: the record of its service for an interface with the address `ip`.  No IPv6 address is ever set. -/
def Announced.service (p : Announced) (ip : Option Bytes) : Service where
  service := bytesOf serviceText
  host := bytesOf (filterServiceName p.group)
  ipv4 := ip
  ipv6 := none
  port := p.port
  txt := bytesOf (txtRecord p.name p.uuid)

/-- mdns.cpp:504-540: the packets that arrive during a query, each with the address of its sender, the buffer and the size. -/
def receiveAll (fuel : Nat) : List (Bytes × Bytes × Nat) → Out (List (Bytes × List Item))
  | [] => .ok []
  | x :: xs => (receive x.2.1 x.2.2 fuel).bind fun is => (receiveAll fuel xs).bind fun r => .ok ((x.1, is) :: r)

/-- CMVRxchangeService.cpp:550-609: the stations of the answers.  `none`: a TXT record is still being read after `fuel` rounds. -/
def stations (fuel : Nat) : List Answer → Option (Except Trouble (List Station))
  | [] => some (.ok [])
  | a :: as =>
    match txtLoop a.txt fuel 0 ([], []) with
    | none => none
    | some (.error e) => some (.error e)
    | some (.ok f) =>
      match stations fuel as with
      | none => none
      | some (.error e) => some (.error e)
      | some (.ok r) => some (.ok (station a f.1 f.2 :: r))

/-- CMVRxchangeService.cpp:539-617 `mDNS_Client_Task` with the packets that arrive: the list of stations `GetLocalServiceAt` shows. -/
def search (text4 text6 : Bytes → Bytes) (own : List (List Char)) (fuel : Nat) (arrived : List (Bytes × Bytes × Nat)) :
    Out (Option (Except Trouble (List Station))) :=
  (receiveAll fuel arrived).bind fun ps => .ok (stations fuel (filterQueries own (collect text4 text6 (heard ps))))

end Verif.Mdns
