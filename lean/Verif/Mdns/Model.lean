import Verif.Basic

/-!
# Model: multicast DNS (`/repo/mdns_cpp/src/mdns.h`, `/repo/mdns_cpp/src/mdns.cpp`)

The packets with which stations of MVR-xchange find each other: building questions and answers, reading received packets, and
collecting the results of a query.

The receive buffer is a list of bytes `m`; its length is the capacity, `size` is the number of bytes that were received.  Bytes from
`size` on are what was in the memory before.  Every read checks against the capacity.  Offsets are natural numbers (`size_t`
does not overflow in these functions).  `MDNS_INVALID_POS` is `none`.  Sockets, logging and time-outs are not modelled.
-/

namespace Verif.Mdns

abbrev Bytes := List Byte

/-- What a function does: it returns, it accesses memory outside of a buffer, or it still runs after the given number of rounds. -/
inductive Out (α : Type) where
  | ok (a : α)
  | outside
  | running
  deriving DecidableEq, Repr

/-- First one, then the other. -/
def Out.bind {α β : Type} (x : Out α) (f : α → Out β) : Out β :=
  match x with
  | .ok a => f a
  | .outside => .outside
  | .running => .running

instance : Monad Out where
  pure := .ok
  bind := Out.bind

/-- A byte of the buffer. -/
def byteAt (m : Bytes) (i : Nat) : Out Byte :=
  match m[i]? with
  | some b => .ok b
  | none => .outside

/-- `ntohs(*(uint16_t*)…)`. -/
def u16 (m : Bytes) (i : Nat) : Out Nat :=
  (byteAt m i).bind fun a => (byteAt m (i + 1)).bind fun b => .ok (a.toNat * 256 + b.toNat)

/-- `ntohl(*(uint32_t*)…)`. -/
def u32 (m : Bytes) (i : Nat) : Out Nat :=
  (u16 m i).bind fun a => (u16 m (i + 2)).bind fun b => .ok (a * 65536 + b)

/-- A part of the buffer (`memcpy` from it). -/
def copy (m : Bytes) (i n : Nat) : Out Bytes :=
  if i + n ≤ m.length then .ok ((m.drop i).take n) else .outside

/-! ### Names -/

/-- mdns.h:102-106 `mdns_string_pair_t` with a valid offset. -/
structure Sub where
  offset : Nat
  length : Nat
  ref : Bool
  deriving DecidableEq, Repr

/-- mdns.h:401-404 `mdns_is_string_ref`. -/
def isRef (b : Byte) : Bool := b &&& 0xC0 == 0xC0

/-- mdns.h:406-433 `mdns_get_next_substring`; `none` is an invalid position. -/
def nextSub (m : Bytes) (size offset : Nat) : Out (Option Sub) :=
  (byteAt m offset).bind fun b =>
    if b = 0 then .ok (some ⟨offset, 0, false⟩)
    else if isRef b then
      if size < offset + 2 then .ok none
      else (u16 m offset).bind fun w =>
        if size ≤ w % 16384 then .ok none
        else (byteAt m (w % 16384)).bind fun l =>
          if size < w % 16384 + 1 + l.toNat then .ok none else .ok (some ⟨w % 16384 + 1, l.toNat, true⟩)
    else if size < offset + 1 + b.toNat then .ok none
    else .ok (some ⟨offset + 1, b.toNat, false⟩)

/-- mdns.h:435-452 `mdns_string_skip`: the offset behind the name, `none` if it is invalid (0 is returned). -/
def skip (m : Bytes) (size : Nat) : Nat → Nat → Out (Option Nat)
  | 0, _ => .running
  | fuel + 1, cur => (nextSub m size cur).bind fun
    | none => .ok none
    | some s =>
      if s.ref then .ok (some (cur + 2))
      else if s.length = 0 then .ok (some (s.offset + 1))
      else skip m size fuel (s.offset + s.length)

/-- `tolower` of the "C" locale. -/
def lower (b : Byte) : Byte := if 65 ≤ b.toNat ∧ b.toNat ≤ 90 then b + 32 else b

/-- `strncasecmp(a, b, n) == 0` for two byte sequences of length `n`: the comparison ends at a null character. -/
def sameNoCase : Bytes → Bytes → Bool
  | a :: as, b :: bs => if lower a = lower b then (if a = 0 then true else sameNoCase as bs) else false
  | _, _ => true

/-- mdns.h:454-490 `mdns_string_equal`: the offsets behind the names, `none` if they differ (0 is returned). -/
def equal (m : Bytes) (size : Nat) (m' : Bytes) (size' : Nat) : Nat → Nat → Option Nat → Nat → Option Nat → Out (Option (Nat × Nat))
  | 0, _, _, _, _ => .running
  | fuel + 1, cur, fin, cur', fin' =>
    (nextSub m size cur).bind fun s => (nextSub m' size' cur').bind fun s' =>
      match s, s' with
      | some s, some s' =>
        if s.length ≠ s'.length then .ok none
        else (copy m s.offset s.length).bind fun a => (copy m' s'.offset s'.length).bind fun b =>
          if sameNoCase b a then
            let fin := if s.ref && fin.isNone then some (cur + 2) else fin
            let fin' := if s'.ref && fin'.isNone then some (cur' + 2) else fin'
            if s.length = 0 then .ok (some (fin.getD (s.offset + 1), fin'.getD (s'.offset + 1)))
            else equal m size m' size' fuel (s.offset + s.length) fin (s'.offset + s'.length) fin'
          else .ok none
      | _, _ => .ok none

/-- mdns.h:508-517: one label and a point are copied as far as there is room in the `cap` bytes; `acc` are the bytes copied before. -/
def put (cap : Nat) (acc label : Bytes) : Bytes :=
  let acc := acc ++ label.take (cap - acc.length)
  if acc.length < cap then acc ++ [46] else acc

/-- mdns.h:492-527 `mdns_string_extract` into a text of `cap` bytes: the text and the offset behind the name, `none` if the name is
invalid (an empty text, the offset unchanged). -/
def extract (m : Bytes) (size cap : Nat) : Nat → Nat → Option Nat → Bytes → Out (Option (Bytes × Nat))
  | 0, _, _, _ => .running
  | fuel + 1, cur, fin, acc => (nextSub m size cur).bind fun
    | none => .ok none
    | some s =>
      let fin := if s.ref && fin.isNone then some (cur + 2) else fin
      if s.length = 0 then .ok (some (acc, fin.getD (s.offset + 1)))
      else (copy m s.offset s.length).bind fun label => extract m size cap fuel (s.offset + s.length) fin (put cap acc label)

/-- The text only. -/
def extractText (m : Bytes) (size cap fuel off : Nat) : Out Bytes :=
  (extract m size cap fuel off none []).bind fun r => .ok ((r.map (·.1)).getD [])

/-- mdns.h:529-538 `mdns_string_find` and the loop of mdns.h:546-558: the labels between points; nothing after a final point. -/
def labels : Bytes → Bytes → List Bytes
  | [], [] => []
  | acc, [] => [acc]
  | acc, b :: bs => if b = 46 then acc :: labels [] bs else labels (acc ++ [b]) bs

/-- mdns.h:548-556, 559-573: one label after the other, the length cast to `unsigned char`. -/
def makeLabels : Nat → List Bytes → Option Bytes
  | remain, [] => if remain = 0 then none else some [0]
  | remain, l :: ls =>
    if l.length < remain then (makeLabels (remain - (l.length + 1)) ls).map (fun r => BitVec.ofNat 8 l.length :: (l ++ r)) else none

/-- mdns.h:540-574 `mdns_string_make`: the bytes written, `none` for a null pointer. -/
def make (capacity : Nat) (name : Bytes) : Option Bytes := makeLabels capacity (labels [] name)

/-- Two bytes in network order, cast to `uint16_t`. -/
def net16 (n : Nat) : Bytes := [BitVec.ofNat 8 (n / 256), BitVec.ofNat 8 n]

/-- Four bytes in network order. -/
def net32 (n : Nat) : Bytes := net16 (n / 65536) ++ net16 n

/-- mdns.h:576-583 `mdns_string_make_ref`. -/
def makeRef (capacity ref : Nat) : Option Bytes :=
  if capacity < 2 then none else some (net16 (0xC000 ||| (ref % 65536)))

/-- mdns.h:585-593 `mdns_string_make_with_ref`.  If `mdns_string_make` fails, the null pointer is not noticed (the check is for
`data`), and the reference is written below it. -/
def makeWithRef (capacity : Nat) (name : Bytes) (ref : Nat) : Out (Option Bytes) :=
  match make capacity name with
  | none => .outside
  | some r => if capacity = r.length then .ok none else .ok ((makeRef (capacity - r.length + 1) ref).map (r.dropLast ++ ·))

/-! ### Receiving answers -/

/-- mdns.h:67-72 `mdns_entry_type`. -/
inductive Entry where
  | question
  | answer
  | authority
  | additional
  deriving DecidableEq, Repr

/-- What a callback gets: mdns.h:80-84. -/
structure Rec where
  entry : Entry
  rtype : Nat
  rclass : Nat
  ttl : Nat
  nameOff : Nat
  nameLen : Nat
  off : Nat
  len : Nat
  deriving DecidableEq, Repr

/-- mdns.h:595-625 `mdns_records_parse` with a callback that returns 0: the results of the callback and the new offset.  The result of
`mdns_string_skip` is not looked at. -/
def records {β : Type} (m : Bytes) (size : Nat) (e : Entry) (cb : Rec → Out β) : Nat → Nat → Out (List β × Nat)
  | 0, off => .ok ([], off)
  | n + 1, nameOff =>
    (skip m size (m.length + 1) nameOff).bind fun s =>
      let off := s.getD nameOff
      (u16 m off).bind fun rtype => (u16 m (off + 2)).bind fun rclass => (u32 m (off + 4)).bind fun ttl =>
        (u16 m (off + 8)).bind fun len =>
          (cb ⟨e, rtype, rclass, ttl, nameOff, off - nameOff, off + 10, len⟩).bind fun b =>
            (records m size e cb n (off + 10 + len)).bind fun r => .ok (b :: r.1, r.2)

/-- mdns.h:970-981: the questions of an answer are skipped; `none` if one is invalid. -/
def skipQuestions (m : Bytes) (size : Nat) : Nat → Nat → Out (Option Nat)
  | 0, off => .ok (some off)
  | n + 1, off => (skip m size (m.length + 1) off).bind fun
    | none => .ok none
    | some o => (u16 m o).bind fun _ => (u16 m (o + 2)).bind fun _ => skipQuestions m size n (o + 4)

/-- mdns.h:939-994 `mdns_query_recv` after `recvfrom` returned `size`; the query ID 0 that `executeQuery2` uses accepts every answer. -/
def queryRecv {β : Type} (m : Bytes) (size : Nat) (cb : Rec → Out β) : Out (List β) :=
  if size = 0 then .ok []
  else (u16 m 0).bind fun _ => (u16 m 2).bind fun _ => (u16 m 4).bind fun questions => (u16 m 6).bind fun answers =>
    (u16 m 8).bind fun authority => (u16 m 10).bind fun additional =>
      if 1 < questions then .ok []
      else (skipQuestions m size questions 12).bind fun
        | none => .ok []
        | some off =>
          (records m size .answer cb answers off).bind fun r1 => (records m size .authority cb authority r1.2).bind fun r2 =>
            (records m size .additional cb additional r2.2).bind fun r3 => .ok (r1.1 ++ r2.1 ++ r3.1)

/-! ### The records -/

/-- mdns.h:1159-1167 `mdns_record_parse_ptr` into a text of 256 bytes. -/
def parsePtr (m : Bytes) (size fuel off len : Nat) : Out Bytes :=
  if off + len ≤ size ∧ 2 ≤ len then extractText m size 256 fuel off else .ok []

/-- mdns.h:1169-1189 `mdns_record_parse_srv`: the port and the name. -/
def parseSrv (m : Bytes) (size fuel off len : Nat) : Out (Nat × Bytes) :=
  if off + len ≤ size ∧ 8 ≤ len then
    (u16 m off).bind fun _ => (u16 m (off + 2)).bind fun _ => (u16 m (off + 4)).bind fun port =>
      (extractText m size 256 fuel (off + 6)).bind fun name => .ok (port, name)
  else .ok (0, [])

/-- mdns.h:1191-1202, 1204-1215 `mdns_record_parse_a`, `mdns_record_parse_aaaa`: an address of `n` bytes. -/
def parseIp (m : Bytes) (size n off len : Nat) : Out Bytes :=
  if off + len ≤ size ∧ len = n then copy m off n else .ok (List.replicate n 0)

/-- One record, as mdns.cpp:255-288 keeps it: the name it is about and its data. -/
inductive Item where
  | ptr (name : Bytes) (data : Bytes)
  | srv (name : Bytes) (port : Nat) (target : Bytes)
  | a (name : Bytes) (ip : Bytes)
  | aaaa (name : Bytes) (ip : Bytes)
  | txt (name : Bytes) (data : Bytes)
  | other
  deriving DecidableEq, Repr

/-- mdns.cpp:239-292 `query_callback`.  The bytes of a TXT record are copied without a check. -/
def queryCallback (m : Bytes) (size fuel : Nat) (r : Rec) : Out Item :=
  (extractText m size 256 fuel r.nameOff).bind fun name =>
    if r.rtype = 12 then (parsePtr m size fuel r.off r.len).bind fun d => .ok (.ptr name d)
    else if r.rtype = 33 then (parseSrv m size fuel r.off r.len).bind fun d => .ok (.srv name d.1 d.2)
    else if r.rtype = 1 then (parseIp m size 4 r.off r.len).bind fun d => .ok (.a name d)
    else if r.rtype = 28 then (parseIp m size 16 r.off r.len).bind fun d => .ok (.aaaa name d)
    else if r.rtype = 16 then (copy m r.off r.len).bind fun d => .ok (.txt name d)
    else .ok .other

/-- A packet that arrives during a query: mdns.cpp:529. -/
def receive (m : Bytes) (size fuel : Nat) : Out (List Item) := queryRecv m size (queryCallback m size fuel)

/-! ### Questions -/

/-- mdns.h:674-689 `mdns_services_query`: a question for the service types. -/
def servicesQuery : Bytes :=
  [0, 0, 0, 0, 0, 1, 0, 0, 0, 0, 0, 0] ++
  [9, 95, 115, 101, 114, 118, 105, 99, 101, 115, 7, 95, 100, 110, 115, 45, 115, 100, 4, 95, 117, 100, 112, 5, 108, 111, 99, 97, 108, 0] ++
  [0, 12, 128, 1]

/-- mdns.h:892-937 `mdns_query_send`: the packet, `none` if -1 is returned.  `ephemeral`: the socket is not bound to port 5353. -/
def querySend (capacity type : Nat) (name : Bytes) (queryId : Nat) (ephemeral : Bool) : Option Bytes :=
  if capacity < 17 + name.length then none
  else (make (capacity - 17) name).map fun n =>
    net16 queryId ++ net16 0 ++ net16 1 ++ net16 0 ++ net16 0 ++ net16 0 ++ n ++ net16 type ++ net16 (if ephemeral then 0x8001 else 1)

/-- mdns.h:820-833: the offset behind the name of a question, `none` if the loop is left there. -/
def questionEnd (m : Bytes) (size flags total start : Nat) : Out (Option Nat) :=
  (equal m size servicesQuery servicesQuery.length 6 start none 12 none).bind fun
    | some e => if flags ≠ 0 ∨ total ≠ 1 then .ok none else .ok (some e.1)
    | none => skip m size (m.length + 1) start

/-- mdns.h:819-848: the questions of a received packet; the results of the callback (the number that is returned is not used by the
caller). -/
def questions {β : Type} (m : Bytes) (size flags total : Nat) (cb : Rec → Out β) : Nat → Nat → Out (List β)
  | 0, _ => .ok []
  | n + 1, start => (questionEnd m size flags total start).bind fun
    | none => .ok []
    | some off => (u16 m off).bind fun rtype => (u16 m (off + 2)).bind fun rclass =>
      if rclass % 32768 ≠ 1 then .ok []
      else (cb ⟨.question, rtype, rclass, 0, start, off - start, start, off - start⟩).bind fun b =>
        (questions m size flags total cb n (off + 4)).bind fun r => .ok (b :: r)

/-- mdns.h:790-851 `mdns_socket_listen` after `recvfrom` returned `size`. -/
def listen {β : Type} (m : Bytes) (size : Nat) (cb : Rec → Out β) : Out (List β) :=
  if size = 0 then .ok []
  else (u16 m 0).bind fun _ => (u16 m 2).bind fun flags => (u16 m 4).bind fun total => questions m size flags total cb total 12

/-- What a station answers to a question. -/
inductive Reply where
  | nothing
  /-- `mdns_discovery_answer`: the type of its service. -/
  | services
  /-- `mdns_query_answer`: the service itself. -/
  | service (unicast : Bool)
  deriving DecidableEq, Repr

/-- "_services._dns-sd._udp.local." -/
def dnsSd : Bytes := [95, 115, 101, 114, 118, 105, 99, 101, 115, 46, 95, 100, 110, 115, 45, 115, 100, 46, 95, 117, 100, 112, 46, 108, 111, 99, 97, 108, 46]

/-- mdns.cpp:294-359 `service_callback` of a station with the given service. -/
def serviceCallback (m : Bytes) (size fuel : Nat) (service : Bytes) (r : Rec) : Out Reply :=
  if r.entry ≠ .question then .ok .nothing
  else if r.rtype = 12 then (parsePtr m size fuel r.off r.len).bind fun name =>
    if name = dnsSd then .ok .services
    else if name = service then .ok (.service (32768 ≤ r.rclass))
    else .ok .nothing
  else if r.rtype = 33 then (parseSrv m size fuel r.off r.len).bind fun _ => .ok .nothing
  else .ok .nothing

/-- mdns.cpp:461: a packet that arrives at a station. -/
def hear (m : Bytes) (size fuel : Nat) (service : Bytes) : Out (List Reply) := listen m size (serviceCallback m size fuel service)

/-! ### The answer of a station -/

/-- defs.hpp:7-16 `ServiceRecord`; an IPv4 address 0.0.0.0 or a null pointer is `none`. -/
structure Service where
  service : Bytes
  host : Bytes
  ipv4 : Option Bytes
  ipv6 : Option Bytes
  port : Nat
  txt : Bytes
  deriving DecidableEq, Repr

/-- A step that returns -1 when it gets a null pointer or if not more than `room` bytes are left behind it. -/
def step (capacity room : Nat) (acc : Bytes) (r : Option Bytes) (f : Bytes → Out (Option Bytes)) : Out (Option Bytes) :=
  match r with
  | none => .ok none
  | some d => if capacity - (acc ++ d).length ≤ room then .ok none else f (acc ++ d)

/-- mdns.h:1098-1114, 1116-1131: an address record for the host. -/
def addAddress (capacity host rclass ttl type : Nat) (ip : Option Bytes) (acc : Bytes) (f : Bytes → Out (Option Bytes)) : Out (Option Bytes) :=
  match ip with
  | none => f acc
  | some a => step capacity (10 + a.length) acc (makeRef (capacity - acc.length) host) fun acc =>
    f (acc ++ (net16 type ++ net16 rclass ++ net32 ttl ++ net16 a.length ++ a))

/-- mdns.h:1133-1151: the TXT record. -/
def addTxt (capacity full rclass ttl : Nat) (txt : Bytes) (acc : Bytes) : Out (Option Bytes) :=
  if txt = [] ∨ 255 < txt.length then .ok (some acc)
  else step capacity (11 + txt.length) acc (makeRef (capacity - acc.length) full) fun acc =>
    .ok (some (acc ++ (net16 16 ++ net16 rclass ++ net32 ttl ++ net16 txt.length ++ txt)))

/-- mdns.h:1057-1151: everything behind the name of the PTR record; `localOff` is the offset of the label "local". -/
def answerRecords (capacity rclass ttl : Nat) (s : Service) (localOff : Nat) (acc : Bytes) : Out (Option Bytes) :=
  let full := acc.length + 10
  (makeWithRef (capacity - full) s.host 12).bind fun fullName =>
    let ptr := net16 12 ++ net16 rclass ++ net32 ttl ++ net16 ((fullName.getD []).length) ++ (fullName.getD [])
    step capacity 10 acc (fullName.map fun _ => ptr) fun acc =>
      step capacity 10 acc (makeRef (capacity - acc.length) full) fun acc =>
        let host := acc.length + 16
        (makeWithRef (capacity - host) s.host localOff).bind fun hostName =>
          let srv := net16 33 ++ net16 rclass ++ net32 ttl ++ net16 (6 + (hostName.getD []).length) ++ net16 0 ++ net16 0 ++
            net16 s.port ++ (hostName.getD [])
          step capacity 10 acc (hostName.map fun _ => srv) fun acc =>
            addAddress capacity host rclass ttl 1 s.ipv4 acc fun acc =>
              addAddress capacity host rclass ttl 28 s.ipv6 acc fun acc =>
                addTxt capacity full rclass ttl s.txt acc

/-- mdns.h:1014-1021: the header of an answer. -/
def answerHeader (unicast : Bool) (queryId : Nat) (s : Service) : Bytes :=
  net16 (if unicast then queryId else 0) ++ net16 0x8400 ++ net16 (if unicast then 1 else 0) ++ net16 1 ++ net16 0 ++
    net16 (1 + (if s.ipv4.isSome then 1 else 0) + (if s.ipv6.isSome then 1 else 0) + (if s.txt = [] ∨ 255 < s.txt.length then 0 else 1))

/-- mdns.h:996-1157 `mdns_query_answer`: the packet that is sent, `none` if -1 is returned.  The question (1027-1041), the name of the PTR
record (1044-1056), the records.  In lines 1077-1087 up to 16 bytes are written although only 11 are known to be there; then no
space is left for the name, and `answerRecords` says `outside`. -/
def queryAnswer (capacity : Nat) (unicast : Bool) (queryId : Nat) (s : Service) : Out (Option Bytes) :=
  if capacity < 12 + 32 + s.service.length + s.host.length then .ok none
  else if unicast then
    step capacity 4 (answerHeader unicast queryId s) (make (capacity - 12) s.service) fun acc =>
      let localOff := acc.length - 7
      let acc := acc ++ (net16 12 ++ net16 0x8001)
      step capacity 10 acc (makeRef (capacity - acc.length) 12) (answerRecords capacity 0x8001 10 s localOff)
  else
    step capacity 10 (answerHeader unicast queryId s) (make (capacity - 12) s.service) fun acc =>
      answerRecords capacity 1 60 s (acc.length - 7) acc

end Verif.Mdns
