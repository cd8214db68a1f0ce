import Verif.Sched.Model

/-!
# What is claimed about the threads, in terms of schedules

A schedule is a list of `Label`s: who moves next, and what comes from outside.
-/

namespace Verif.Sched

/-- The schedules for which the claims hold: no condition variable wakes up by itself, no callback leaves the service. -/
def Label.Polite : Label → Prop
  | .act _ c => ∀ u ∈ c.user, u ≠ .leave
  | .spurious => False
  | _ => True

/-- The threads only go on with what they have to do: nothing new comes from outside. -/
def Label.Quiet : Label → Prop
  | .act _ _ | .take | .finish => True
  | _ => False

/-- The application thread waits, or is about to wait, in `QueryLocalServices`, but the search it waits for is over. -/
def Missed (s : St) : Prop :=
  (∃ p, s.app = .wait :: p ∨ s.app = .blocked :: p) ∧ Handler.query ∉ s.queue ∧ Act.notify ∉ s.mdns

/-- Nothing can happen without a new event from outside. -/
def Rests (s : St) : Prop := ∀ l : Label, l.Quiet → step s l = none

/-- What threads share. -/
inductive Shared
  | group      -- `fMVRGroup`
  | found      -- `fQueryLocalServicesResult`, `fIsInitialized`
  | announced  -- `fmdns`
  | callback   -- `fCallBack`
deriving DecidableEq

/-- What an action reads. -/
def Act.reads : Act → List Shared
  | .search => [.announced]
  | .look _ _ | .get _ | .init | .members _ => [.found]
  | .targets => [.group]
  | .callback => [.callback]
  | _ => []

/-- What an action changes. -/
def Act.writes : Act → List Shared
  | .store _ => [.found]
  | .put _ | .push _ | .drop | .members _ => [.group]
  | .announce | .silence => [.announced]
  | .setCallback => [.callback]
  | _ => []

/-- Two threads are about to touch `x`, at least one of them to change it. -/
def Race (s : St) (x : Shared) : Prop :=
  ∃ v w a b p q, v ≠ w ∧ s.prog v = a :: p ∧ s.prog w = b :: q ∧ x ∈ a.writes ∧ (x ∈ b.writes ∨ x ∈ b.reads)

/-- The application calls `ConnectToLocalService`. -/
def Label.Connects : Label → Prop
  | .call (.connect _) => True
  | _ => False

/-- The application thread goes on, or the application calls something. -/
def Label.OfApp : Label → Prop
  | .act .app _ | .call _ => True
  | _ => False

/-- Something happens in the other threads: a message is taken, a search is begun, the server thread or the search thread
goes on. -/
def Label.Noise : Label → Prop
  | .message _ | .take | .finish | .act .net _ | .act .mdns _ => True
  | _ => False

/-- Anything but a call that connects or leaves. -/
def Label.Keeps : Label → Prop
  | .call (.connect _) | .call .leave => False
  | _ => True

end Verif.Sched
