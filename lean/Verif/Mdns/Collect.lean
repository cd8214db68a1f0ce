import Verif.Mdns.Model
import Verif.Xchg.Service

/-!
# Model: the results of a query (`/repo/mdns_cpp/src/mdns.cpp:476-618`, `executeQuery2`)

Every record that arrived during a query, with the address of its sender, and the answers made of them.
-/

namespace Verif.Mdns

/-- Bytes as the characters of `Verif.Xchg`. -/
def chars (b : Bytes) : List Char := b.map fun x => Char.ofNat x.toNat

/-- A record and the address (as text) of the station it came from: mdns.hpp:33-43 `unsorted_query_part_t`. -/
structure Heard where
  addr : Bytes
  item : Item
  deriving DecidableEq, Repr

/-- The order of `std::string`. -/
def before : Bytes → Bytes → Bool
  | [], [] => false
  | [], _ :: _ => true
  | _ :: _, [] => false
  | a :: as, b :: bs => if a = b then before as bs else a.toNat < b.toNat

/-- `std::set<std::string>::insert`. -/
def insertText (t : Bytes) : List Bytes → List Bytes
  | [] => [t]
  | x :: xs => if t = x then x :: xs else if before t x then t :: x :: xs else x :: insertText t xs

/-- mdns.cpp:548-567 `testQueryPart`: whether a record about `name` belongs to the SRV record about `srv` with the target `target`. -/
def belongs (addr name : Bytes) (srvAddr srv target : Bytes) : Bool :=
  addr == srvAddr && (name == srv || name == target || name.isSuffixOf srv || (name.takeWhile (· != 46)).isPrefixOf srv)

/-- mdns.cpp:584-590, 606-612: the data of the first record of a kind that belongs to it. -/
def firstOf (pick : Item → Option (Bytes × Bytes)) (h : List Heard) (addr srv target : Bytes) : Bytes :=
  ((h.findSome? fun x => (pick x.item).bind fun p => if belongs x.addr p.1 addr srv target then some p.2 else none)).getD []

/-- mdns.cpp:592-604: the texts of all addresses of a kind that belong to it. -/
def addresses (pick : Item → Option (Bytes × Bytes)) (h : List Heard) (addr srv target : Bytes) : List Bytes :=
  (h.filterMap fun x => (pick x.item).bind fun p => if belongs x.addr p.1 addr srv target then some p.2 else none).foldl
    (fun s t => insertText t s) []

/-- TXT records. -/
def Item.txt? : Item → Option (Bytes × Bytes)
  | .txt n d => some (n, d)
  | _ => none

/-- PTR records. -/
def Item.ptr? : Item → Option (Bytes × Bytes)
  | .ptr n d => some (n, d)
  | _ => none

/-- A records; `text` is `ipv4AddressToString`. -/
def Item.a? (text : Bytes → Bytes) : Item → Option (Bytes × Bytes)
  | .a n d => some (n, text d)
  | _ => none

/-- AAAA records; `text` is `ipv6AddressToString`. -/
def Item.aaaa? (text : Bytes → Bytes) : Item → Option (Bytes × Bytes)
  | .aaaa n d => some (n, text d)
  | _ => none

/-- mdns.cpp:579-614: the answer for one SRV record. -/
def answerFor (text4 text6 : Bytes → Bytes) (h : List Heard) (addr srv : Bytes) (port : Nat) (target : Bytes) : Xchg.Answer where
  serviceName := chars (firstOf Item.ptr? h addr srv target)
  hostname := chars srv
  ipV4 := (addresses (Item.a? text4) h addr srv target).map chars
  ipV6 := (addresses (Item.aaaa? text6) h addr srv target).map chars
  port := port
  txt := chars (firstOf Item.txt? h addr srv target)

/-- SRV records. -/
def Heard.srv? (x : Heard) : Option (Bytes × Bytes × Nat × Bytes) :=
  match x.item with
  | .srv n p t => some (x.addr, n, p, t)
  | _ => none

/-- mdns.cpp:570-577: those that are not equal to an earlier one. -/
def distinct {α : Type} [DecidableEq α] : List α → List α → List α
  | _, [] => []
  | seen, s :: ss => if s ∈ seen then distinct seen ss else s :: distinct (s :: seen) ss

/-- mdns.cpp:546-617: the result of a query. -/
def collect (text4 text6 : Bytes → Bytes) (h : List Heard) : List Xchg.Answer :=
  (distinct [] (h.filterMap Heard.srv?)).map fun s => answerFor text4 text6 h s.1 s.2.1 s.2.2.1 s.2.2.2

/-- The packets of a query, each with the address of its sender. -/
def heard (packets : List (Bytes × List Item)) : List Heard := packets.flatMap fun p => p.2.map fun i => ⟨p.1, i⟩

end Verif.Mdns
