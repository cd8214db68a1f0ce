import Verif.Geo.Model

/-!
# C100: the footprint with the questions whether to stop

`GetFootPrintForBreak` asks the function that an application has registered to cancel the reading of files (`CheckAbort`,
GDTFManager.cpp:92-106), once for each channel in each of its loops, and gives 0 if the answer is yes.  `Verif.Geo.Model.footprint` is the
function without these questions; here they are added.

Simplification: a loop over the channels is not cut in the middle of its additions: a yes in a loop gives 0 anyway.
-/

namespace Verif.Geo

/-- The answers of the registered function, by number of the question. -/
abbrev Answers := Nat → Bool

/-- Why the loops end early: the function said yes, or an access beyond the end of an array. -/
inductive Stop where
  | aborted | bad

/-- `k` questions from number `n` on, until a yes (GDTFManager.cpp:5300, 5328, 5366, 5393). -/
def ask (cb : Answers) (n k : Nat) : Except Stop Nat :=
  if (List.range k).any (fun i => cb (n + i)) then .error .aborted else .ok (n + k)

/-- GDTFManager.cpp:5349-5375 with its questions. -/
def directAsked (cb : Answers) (n : Nat) (chans : List Chan) (b : Int) (r : Ref) (tree : List Geo) : Except Stop (List Nat × Nat) :=
  if b ∈ refBreaks chans tree then
    match r.breaks[(refBreaks chans tree).idxOf b]? with
    | none => .error .bad
    | some br => do
      let n ← ask cb n (tree.length * chans.length)
      .ok (tree.flatMap (geoAddresses chans b ((br.address + 65535) % 65536)), n)
  else .ok ([], n)

/-- GDTFManager.cpp:5308-5402 with its questions. -/
def refAsked (cb : Answers) (n : Nat) (heap : Nat → Option Geo) (chans : List Chan) (b : Int) (r : Ref) : Except Stop (List Nat × Nat) := do
  let tree := treeOf (r.linked.bind heap)
  let n ← ask cb n (tree.length * chans.length)
  let (direct, n) ← directAsked cb n chans b r tree
  if hasOverwrite chans tree then
    match r.breaks.getLast? with
    | none => .error .bad
    | some br =>
      if br.brk = b then do
        let n ← ask cb n (tree.length * chans.length)
        .ok (direct ++ tree.flatMap (geoAddresses chans 0 ((br.address + 65535) % 65536)), n)
      else .ok (direct, n)
  else .ok (direct, n)

/-- GDTFManager.cpp:5308: only geometry references have such addresses. -/
def linkedAsked (cb : Answers) (n : Nat) (heap : Nat → Option Geo) (chans : List Chan) (b : Int) : Option Ref → Except Stop (List Nat × Nat)
  | none => .ok ([], n)
  | some r => refAsked cb n heap chans b r

/-- GDTFManager.cpp:5289-5412 with its questions. -/
def allAsked (cb : Answers) (heap : Nat → Option Geo) (chans : List Chan) (b : Int) : Nat → List Geo → Except Stop (List Nat × Nat)
  | n, [] => .ok ([], n)
  | n, g :: t => do
    let n ← ask cb n chans.length
    let (l, n) ← linkedAsked cb n heap chans b g.ref
    let (l', n) ← allAsked cb heap chans b n t
    .ok (geoAddresses chans b 0 g ++ l ++ l', n)

/-- `GetFootprintForBreak`, CGdtfDmxMode.cpp:477-481 with GDTFManager.cpp:5268-5424: the call reports no error in any case; `n` is the
number of questions that were asked before. -/
def footprintAsked (cb : Answers) (n : Nat) (heap : Nat → Option Geo) (fuel : Nat) (root : Option Geo) (chans : List Chan) (b : Nat) :
    Option (Except Unit Nat) :=
  match breakArray heap fuel root chans with
  | none => none
  | some (.error e) => some (.error e)
  | some (.ok breaks) =>
    if (b : Int) ∉ breaks then some (.ok 0)
    else
      match allAsked cb heap chans b n (treeOf root) with
      | .error .aborted => some (.ok 0)
      | .error .bad => some (.error ())
      | .ok l => some (.ok (blockSize l.1))

end Verif.Geo
