import Verif.Model.GoLib

/-! The warning collector (types/warnings.go), with Go's slices: a slice is a window into a backing array, `append`
writes into the array while there is capacity and moves to a new array otherwise. -/

namespace Pdfer.Warnings

open Pdfer.Go

/-- types/warnings.go:9-16 (WarningLevel) and 18-25 (Warning). Simplified: Context and Timestamp are left out (no method of
the collector reads them); the pointer identity is the field `ident`. -/
structure Warning where
  ident : Nat
  level : Bytes
  code : Bytes
  message : Bytes
deriving DecidableEq, Repr, Inhabited

/-- A Go slice of warnings: which array, and how many elements from its start. (All slices here start at 0.) -/
structure Slice where
  arr : Nat
  len : Nat
deriving DecidableEq, Repr

/-- types/warnings.go:75-78, with the arrays that its slices point to. The length of an array is its capacity. -/
structure Collector where
  arrays : List (List (Option Warning))
  warnings : Slice
  enabled : Bool
deriving DecidableEq, Repr

/-- types/warnings.go:81-86. -/
def new (enabled : Bool) : Collector := { arrays := [[]], warnings := ⟨0, 0⟩, enabled := enabled }

/-- The elements a slice shows. -/
def read (c : Collector) (s : Slice) : List (Option Warning) := ((c.arrays[s.arr]?).getD []).take s.len

/-- Go's `append(s, w)`. `grow n` is the number of spare places the runtime chooses for a full slice of length n. -/
def append (grow : Nat → Nat) (c : Collector) (w : Warning) : Collector :=
  let s := c.warnings
  let a := (c.arrays[s.arr]?).getD []
  if s.len < a.length then
    { c with arrays := c.arrays.set s.arr (a.set s.len (some w)), warnings := ⟨s.arr, s.len + 1⟩ }
  else
    { c with arrays := c.arrays ++ [a.take s.len ++ some w :: List.replicate (grow s.len) none],
             warnings := ⟨c.arrays.length, s.len + 1⟩ }

/-- types/warnings.go:89-93. -/
def add (grow : Nat → Nat) (c : Collector) (w : Option Warning) : Collector :=
  match w with
  | some w => if c.enabled then append grow c w else c
  | none => c

/-- types/warnings.go:126-128. -/
def clear (c : Collector) : Collector := { c with warnings := ⟨c.warnings.arr, 0⟩ }

/-- types/warnings.go:153-160. -/
def enable (c : Collector) : Collector := { c with enabled := true }
/-- types/warnings.go:153-160. -/
def disable (c : Collector) : Collector := { c with enabled := false }

/-- types/warnings.go:111-113: what Warnings() returns. -/
def warnings (c : Collector) : Slice := c.warnings

/-- types/warnings.go:116-118. -/
def count (c : Collector) : Nat := c.warnings.len

/-- types/warnings.go:121-123. -/
def hasWarnings (c : Collector) : Bool := decide (c.warnings.len > 0)

/-- types/warnings.go:132-138 and 143-149: the loop of the filters. A nil pointer among the warnings would panic. -/
def collect (p : Warning → Bool) : List (Option Warning) → List Warning → Res (List Warning)
  | [], acc => .ok acc
  | none :: _, _ => .panic
  | some w :: ws, acc => collect p ws (if p w then acc ++ [w] else acc)

/-- types/warnings.go:131-139. -/
def filterByLevel (c : Collector) (level : Bytes) : Res (List Warning) :=
  collect (fun w => w.level == level) (read c c.warnings) []

/-- types/warnings.go:142-150. -/
def getByCode (c : Collector) (code : Bytes) : Res (List Warning) :=
  collect (fun w => w.code == code) (read c c.warnings) []

/-- types/warnings.go:28-33. -/
def errorText (w : Warning) : Bytes :=
  if w.code ≠ [] then b!"[" ++ w.level ++ b!"] " ++ w.code ++ b!": " ++ w.message
  else b!"[" ++ w.level ++ b!"] " ++ w.message

/-- One call on the collector. -/
inductive Op where
  | add (w : Option Warning)
  | clear
  | enable
  | disable
deriving DecidableEq, Repr

/-- The call of an operation (types/warnings.go:89-160). -/
def step (grow : Nat → Nat) (c : Collector) : Op → Collector
  | .add w => Warnings.add grow c w
  | .clear => Warnings.clear c
  | .enable => Warnings.enable c
  | .disable => Warnings.disable c

/-- A history of calls. -/
def run (grow : Nat → Nat) (c : Collector) (ops : List Op) : Collector := ops.foldl (step grow) c

end Pdfer.Warnings
