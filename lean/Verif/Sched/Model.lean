import Verif.Xchg.Service

/-!
# Threads of the MVR-xchange service (src/mvrxchange/CMVRxchangeService.cpp, mvrxchange_server.cpp, mvrxchange_session.cpp)

Three threads share one service object: the application thread, which calls the interface; the server thread
(`MVRxchangeServer::fExecutionThread`), which handles one incoming message after the other and calls the callback; the
search thread (`fmdns_Thread`), which runs the handlers posted to `fmdns_IO_Context`.  A thread is the list of actions it
still has to do, an action is one atomic step.  Which thread moves next is decided by the schedule, and so is everything
that comes from outside: calls, messages, what a search finds, what a callback does, when the timer fires.

Simplifications.  All calls of the interface come from one thread at a time (the code guards neither `fServer` nor
`fmdns_Thread`); the callback runs on the server thread and may itself call the interface.  A network operation ends: a
search has a timeout, sending has one of 1 s and 10 s (CMVRxchangeService.cpp:384-386); that reading a TXT record may not
end is C45.  The asynchronous sends of one message are one action per send of the thread that waits for them; they touch
nothing but the packet.  The local mutex of `QueryLocalServices` (CMVRxchangeService.cpp:156-157) is used by one thread only
and left out.
-/

namespace Verif.Sched

open Verif.Xchg Verif.Uuid

/-- CMVRxchangeService.h:63 `fQueryLocalServicesResult_mtx`, CMVRxchangeService.h:76 `fMvrGroupMutex`. -/
inductive Mutex
  | group | found
deriving DecidableEq

inductive Who
  | app | net | mdns
deriving DecidableEq

/-- What looks a station up: a JOIN message (CMVRxchangeService.cpp:307), the handler it posts (CMVRxchangeService.cpp:329),
a LEAVE message (CMVRxchangeService.cpp:340). -/
inductive Why
  | join | posted | leave
deriving DecidableEq

/-- What a callback may call. -/
inductive User
  | send | at (i : Nat) | leave
deriving DecidableEq

/-- Handlers posted to `fmdns_IO_Context`: CMVRxchangeService.cpp:463 (and 449), CMVRxchangeService.cpp:326-334,
CMVRxchangeService.cpp:158-161. -/
inductive Handler
  | tick | joined (u : Words) | query
deriving DecidableEq

/-- One atomic step of a thread.  `lock`/`unlock` of the mutexes are the beginning and end of the scopes of the
`lock_guard`s. -/
inductive Act
  | lock (m : Mutex)
  | unlock (m : Mutex)
  | search                                    -- 542-611: the network is searched; reads `fmdns` (505)
  | store (l : List Station)                  -- 615-616
  | look (u : Words) (why : Why)              -- 223-239 in `GetSingleMemberOfService`
  | put (m : Member)                          -- 311-321
  | push (m : Member)                         -- 332
  | drop                                      -- 343-348
  | init                                      -- 93, 96-99
  | members (name : List Char)                -- 103
  | targets                                   -- 243-259
  | sending (n : Nat)                         -- 262-274: `n` sends are still running
  | get (i : Nat)                             -- 180-185
  | post (h : Handler)
  | query                                     -- 153-165: `joinable`?
  | wait                                      -- 162: `cv.wait` is called
  | blocked                                   -- 162: within `cv.wait`
  | notify                                    -- 160
  | halt                                      -- mvrxchange_server.cpp:27
  | joinNet                                   -- mvrxchange_server.cpp:28-31
  | listen                                    -- 91
  | stop                                      -- 469
  | joinMdns                                  -- 470-473
  | start                                     -- 462-464
  | announce                                  -- 71-88: `fmdns` is filled
  | silence                                   -- 139-143: `fmdns` is emptied
  | setCallback                               -- 206
  | callback                                  -- 353-356
  | arm                                       -- 448-449

/-- The search thread: not there (not joinable), running, or ended and not yet joined. -/
inductive Life
  | none | running | ended
deriving DecidableEq

inductive Bad
  | terminated  -- std::terminate
  | undefined   -- undefined behaviour
deriving DecidableEq

structure St where
  app : List Act
  net : List Act
  mdns : List Act
  /-- the server object exists -/
  netUp : Bool
  /-- its `io_context` was stopped -/
  halted : Bool
  life : Life
  stopFlag : Bool
  queue : List Handler
  ownGroup : Option Who
  ownFound : Option Who
  /-- the condition variable of `QueryLocalServices` exists -/
  cv : Bool
  /-- `fmdns` is not empty -/
  announced : Bool
  found : List Station
  initialised : Bool
  group : List Member
  bad : Option Bad

/-- CMVRxchangeService.cpp:15-18. -/
def St.start : St :=
  { app := [], net := [], mdns := [], netUp := false, halted := false, life := .none, stopFlag := false, queue := []
    ownGroup := none, ownFound := none, cv := false, announced := false, found := [], initialised := false, group := []
    bad := none }

def St.prog (s : St) : Who → List Act
  | .app => s.app
  | .net => s.net
  | .mdns => s.mdns

def St.setProg (s : St) (w : Who) (p : List Act) : St :=
  match w with
  | .app => { s with app := p }
  | .net => { s with net := p }
  | .mdns => { s with mdns := p }

def St.owner (s : St) : Mutex → Option Who
  | .group => s.ownGroup
  | .found => s.ownFound

def St.setOwner (s : St) (m : Mutex) (o : Option Who) : St :=
  match m with
  | .group => { s with ownGroup := o }
  | .found => { s with ownFound := o }

/-! ## The code of the functions -/

/-- CMVRxchangeService.cpp:210-279 `Send_message`. -/
def sendProg : List Act := [.lock .group, .targets]

/-- CMVRxchangeService.cpp:177-188 `GetLocalServiceAt`. -/
def getProg (i : Nat) : List Act := [.lock .found, .get i, .unlock .found]

/-- CMVRxchangeService.cpp:294-298 `TCP_Stop`, mvrxchange_server.cpp:25-32. -/
def tcpStopProg : List Act := [.halt, .joinNet]

/-- CMVRxchangeService.cpp:467-474 `mDNS_Client_Stop`. -/
def mdnsStopProg : List Act := [.stop, .joinMdns]

/-- CMVRxchangeService.cpp:129-147 `LeaveLocalService`. -/
def leaveProg : List Act := tcpStopProg ++ sendProg ++ mdnsStopProg ++ [.silence]

/-- CMVRxchangeService.cpp:46-126 `ConnectToLocalService`.  `TCP_Start` (284-292) finds no server, and 118-121 no thread,
after `LeaveLocalService`; stopping again is written out for the thread, as joining a thread that is not there does
nothing. -/
def connectProg (name : List Char) : List Act :=
  leaveProg ++ [.listen, .announce, .lock .found, .init] ++
    [.lock .group, .lock .found, .members name, .unlock .found, .unlock .group] ++ sendProg ++ mdnsStopProg ++ [.start]

/-- CMVRxchangeService.cpp:150-174 `QueryLocalServices`. -/
def queryProg : List Act := [.query, .lock .found, .unlock .found]

/-- The calls of the interface. -/
inductive Call
  | connect (name : List Char) | leave | query | at (i : Nat) | onMessage | send
deriving DecidableEq

def Call.prog : Call → List Act
  | .connect name => connectProg (filterServiceName name)
  | .leave => leaveProg
  | .query => queryProg
  | .at i => getProg i
  | .onMessage => [.setCallback]
  | .send => sendProg

def User.prog : User → List Act
  | .send => sendProg
  | .at i => getProg i
  | .leave => leaveProg

/-- Messages from other stations; all but JOIN and LEAVE only reach the callback. -/
inductive Msg
  | join (u : Words) | leave (u : Words) | other
deriving DecidableEq

/-- CMVRxchangeService.cpp:300-360 `TCP_OnIncommingMessage`. -/
def Msg.prog : Msg → List Act
  | .join u => [.lock .found, .look u .join, .callback]
  | .leave u => [.lock .found, .look u .leave, .callback]
  | .other => [.callback]

/-- CMVRxchangeService.cpp:443-450, 326-334, 158-161. -/
def Handler.prog : Handler → List Act
  | .tick => [.search, .arm]
  | .joined u => [.search, .lock .found, .look u .posted]
  | .query => [.search, .notify]

/-! ## Steps -/

/-- What comes from outside when a thread moves: the stations a search finds, the calls a callback makes. -/
structure Choice where
  found : List Station
  user : List User

/-- One action `a` of thread `w`, whose remaining actions are `rest`; `none`: the thread has to wait. -/
def exec (w : Who) (a : Act) (rest : List Act) (c : Choice) (s : St) : Option St :=
  match a with
  | .lock m => if s.owner m = none then some ((s.setOwner m (some w)).setProg w rest) else none
  | .unlock m => some ((s.setOwner m none).setProg w rest)
  | .search => some (s.setProg w ([.lock .found, .store c.found, .unlock .found] ++ rest))
  | .store l => some ({ s with found := l, initialised := true }.setProg w rest)
  | .look u why =>
    some (match singleMember u s.found, why with
      | some m, .join => s.setProg w ([.unlock .found, .lock .group, .put m, .unlock .group] ++ rest)
      | none, .join => s.setProg w ([.unlock .found, .post (.joined u)] ++ rest)
      | some m, .posted => s.setProg w ([.unlock .found, .lock .group, .push m, .unlock .group] ++ rest)
      | none, .posted => s.setProg w (.unlock .found :: rest)
      | some _, .leave => s.setProg w (.unlock .found :: rest)
      | none, .leave => s.setProg w ([.unlock .found, .lock .group, .drop, .unlock .group] ++ rest))
  | .put m => some ({ s with group := putMember m s.group }.setProg w rest)
  | .push m => some ({ s with group := s.group ++ [m] }.setProg w rest)
  | .drop => some ({ s with group := s.group.filter fun m => m.uuid != ((0, 0, 0, 0) : Words) }.setProg w rest)
  | .init => some (s.setProg w (.unlock .found :: (if s.initialised then rest else .search :: rest)))
  | .members name => some ({ s with group := membersOf name s.found }.setProg w rest)
  | .targets => some (s.setProg w (.unlock .group :: .sending (Xchg.targets s.group []).length :: rest))
  | .sending n => some (s.setProg w (if n = 0 then rest else .sending (n - 1) :: rest))
  | .get _ => some (s.setProg w rest)
  | .post h => some ({ s with queue := s.queue ++ [h] }.setProg w rest)
  | .query => some (if s.life = .none then s.setProg w (.search :: rest)
      else { s with queue := s.queue ++ [Handler.query], cv := true }.setProg w (.wait :: rest))
  | .wait => some (s.setProg w (.blocked :: rest))
  | .blocked => none
  | .notify =>
    if s.cv then
      match s.app with
      | .blocked :: p => some ({ s with app := p, cv := false }.setProg w rest)
      | _ => some (s.setProg w rest)
    else some ({ s with bad := some .undefined }.setProg w rest)
  | .halt => some ({ s with halted := true }.setProg w rest)
  | .joinNet =>
    if w = .net then some { s with bad := some .terminated }
    else if s.net = [] then some ({ s with netUp := false, halted := false }.setProg w rest) else none
  | .listen => some ({ s with netUp := true, halted := false }.setProg w rest)
  | .stop => some ({ s with stopFlag := true }.setProg w rest)
  | .joinMdns =>
    match s.life with
    | .running => none
    | _ => some ({ s with life := .none }.setProg w rest)
  | .start => some ({ s with stopFlag := false, life := .running, queue := s.queue ++ [Handler.tick] }.setProg w rest)
  | .announce => some ({ s with announced := true }.setProg w rest)
  | .silence => some ({ s with announced := false }.setProg w rest)
  | .setCallback => some (s.setProg w rest)
  | .callback => some (s.setProg w (c.user.flatMap User.prog ++ rest))
  | .arm => some (s.setProg w rest)

/-- One entry of a schedule. -/
inductive Label
  | act (w : Who) (c : Choice)  -- thread `w` does its next action
  | call (c : Call)             -- the application calls the interface
  | message (m : Msg)           -- a message arrives
  | timer                       -- the 45 s timer fires (449)
  | take                        -- the search thread takes the next handler (456)
  | finish                      -- the search thread ends (454)
  | spurious                    -- `cv.wait` returns without having been notified

/-- The state after one entry; `none`: not possible now.  CMVRxchangeService.cpp:452-458: the flag is looked at between two
rounds of at most one second, so handlers are still taken after it was set. -/
def step (s : St) (l : Label) : Option St :=
  if s.bad = none then
    match l with
    | .act w c =>
      match s.prog w with
      | [] => none
      | a :: rest => exec w a rest c s
    | .call c => if s.app = [] then some { s with app := c.prog } else none
    | .message m => if s.net = [] ∧ s.netUp ∧ s.halted = false then some { s with net := m.prog } else none
    | .timer => some { s with queue := s.queue ++ [Handler.tick] }
    | .take =>
      match s.queue with
      | h :: q => if s.life = .running ∧ s.mdns = [] then some { s with queue := q, mdns := h.prog } else none
      | [] => none
    | .finish => if s.life = .running ∧ s.mdns = [] ∧ s.stopFlag then some { s with life := .ended } else none
    | .spurious =>
      match s.app with
      | .blocked :: p => some { s with app := p, cv := false }
      | _ => none
  else none

/-- A schedule. -/
def run (s : St) : List Label → Option St
  | [] => some s
  | l :: ls => match step s l with
    | some s' => run s' ls
    | none => none

end Verif.Sched
