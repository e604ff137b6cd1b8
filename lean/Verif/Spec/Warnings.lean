import Verif.Model.Warnings

/-! What a history of calls should leave in the collector: read off the history alone. -/

namespace Pdfer.Spec.Warnings

open Pdfer.Warnings

/-- Is collecting switched on after the history? -/
def enabledAfter (start : Bool) : List Op → Bool
  | [] => start
  | .enable :: ops => enabledAfter true ops
  | .disable :: ops => enabledAfter false ops
  | _ :: ops => enabledAfter start ops

/-- The part of a history since the last Clear, with the state of the switch at that point. -/
def sinceClear (start : Bool) : List Op → Bool × List Op
  | [] => (start, [])
  | op :: ops => if Op.clear ∈ ops then sinceClear (enabledAfter start [op]) ops
                 else if op = .clear then (start, ops) else (start, op :: ops)

/-- The warnings added while the switch was on, in order. -/
def added (on : Bool) : List Op → List Warning
  | [] => []
  | .add (some w) :: ops => if on then w :: added on ops else added on ops
  | op :: ops => added (enabledAfter on [op]) ops

/-- What the collector should hold. -/
def expected (start : Bool) (ops : List Op) : List Warning :=
  added (sinceClear start ops).1 (sinceClear start ops).2

end Pdfer.Spec.Warnings
