import Verif.Disk.Model
import Verif.Zip.Spec

/-!
# Specification of the files behind the archives

What a failure leaves behind, and the histories the properties are about.
-/

namespace Verif.Disk.Spec

open Verif.Zip Verif.Disk

/-- The process is killed after the first `k` of the events: the operating system keeps what it has been given. -/
def killed (d : Files) (evs : List Ev) (k : Nat) : Files := after d (evs.take k)

/-- `v` can be the content of `f` when the power fails after the first `k` of the events: it is the content at some
moment not earlier than the last `fsync` of `f`. -/
def PowerLoss (d : Files) (evs : List Ev) (k : Nat) (f : FileId) (v : Option (List Byte)) : Prop :=
  ∃ j, j ≤ k ∧ (∀ i, j ≤ i → i < k → evs[i]? ≠ some (.sync f)) ∧ v = after d (evs.take j) f

/-- The operating system does all it is asked for. -/
def Works (os : Os) (size : Nat) : Prop := os.opens = true ∧ size ≤ os.room

/-- The changes made by other programs alone. -/
def others (d : Files) : List Act → Files
  | [] => d
  | .other f v :: t => others (put d f v) t
  | .call _ _ :: t => others d t

/-- The files opened by name in a history. -/
def opened : List Act → List FileId
  | [] => []
  | .call _ (.openRead f) :: t => f :: opened t
  | .call _ (.openWrite f) :: t => f :: opened t
  | .call _ (.openNew f _) :: t => f :: opened t
  | _ :: t => opened t

/-- The files added in a history. -/
def adds : List Act → List Add
  | [] => []
  | .call _ (.add a) :: t => a :: adds t
  | _ :: t => adds t

/-- Only additions, and other programs at work. -/
def OnlyAdds (acts : List Act) : Prop :=
  ∀ x ∈ acts, (∃ env a, x = .call env (.add a)) ∨ ∃ f v, x = .other f v

/-- Additions with nothing else in between. -/
def adding (l : List (Env × Add)) : List Act := l.map (fun p => .call p.1 (.add p.2))

/-- Making an archive: opening it anew, adding files, closing it; other programs may be at work in between. -/
def making (env : Env) (f : FileId) (c : Bool) (acts : List Act) (env' : Env) : List Act :=
  .call env (.openNew f c) :: (acts ++ [.call env' .close])

/-- The results to be returned: success for opening and closing, and for the additions those of the archive. -/
def makingResults (codec : Codec) (c : Bool) (acts : List Act) : List Err :=
  .noError :: (Zip.Spec.results codec c [] (adds acts) ++ [.noError])

/-- Calls that are about reading: opening for reading, closing — and attempts to add. -/
def Reading (acts : List Act) : Prop :=
  ∀ x ∈ acts, (∃ env f, x = .call env (.openRead f)) ∨ (∃ env b, x = .call env (.openMem b)) ∨
    (∃ env, x = .call env .close) ∨ (∃ env a, x = .call env (.add a)) ∨ ∃ f v, x = .other f v

end Verif.Disk.Spec
