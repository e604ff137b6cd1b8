import Verif.Model.Manipulate

/-! Calls of the manipulator that change several pages, and InsertPage as a whole. -/

namespace Pdfer.Manipulate

open Pdfer.Go

/-- core/manipulate/deletion.go:110-115 – the loop of `DeletePages`, given the numbers in the order they are taken.  The manipulator is
changed in place: it comes back also when a call fails, with whether all succeeded (`none`: an enumeration did not finish). -/
def deleteLoop (fuel : Nat) : Manip → List Int → Option (Manip × Bool)
  | m, [] => some (m, true)
  | m, p :: ps => match deletePage m fuel p with
    | none => none
    | some none => some (m, false)
    | some (some m') => deleteLoop fuel m' ps

/-- core/manipulate/deletion.go:107-116 – `DeletePages`: from the last number of the list to the first (nothing is sorted). -/
def deletePages (m : Manip) (fuel : Nat) (pages : List Int) : Option (Manip × Bool) := deleteLoop fuel m pages.reverse

/-- core/manipulate/rotation.go:67-72 – the loop of `RotateAllPages`: pages `i + 1`, …, `i + k`. -/
def rotateLoop (fuel : Nat) (angle : Int) : Nat → Nat → Manip → Option (Manip × Bool)
  | 0, _, m => some (m, true)
  | k + 1, i, m => match rotatePage m fuel ((i : Int) + 1) angle with
    | none => none
    | some none => some (m, false)
    | some (some m') => rotateLoop fuel angle k (i + 1) m'

/-- core/manipulate/rotation.go:60-75 – `RotateAllPages`. -/
def rotateAllPages (m : Manip) (fuel : Nat) (angle : Int) : Option (Manip × Bool) :=
  match allPages m.get m.root fuel with
  | none => none
  | some none => some (m, false)
  | some (some l) => rotateLoop fuel angle l.length 0 m

/-- core/manipulate/insertion.go:89-117 – `findParentPagesObjectForInsertion`: the root of the page tree. -/
def rootPages (m : Manip) : Option Int :=
  ((parseObjectRef m.root).bind m.get).bind fun cat => parseObjectRef (extractDictValue cat b!"/Pages")

/-- core/manipulate/insertion.go:11-86 – `InsertPage`: outer `none` = enumeration not finished, inner `none` = error. -/
def insertPage (m : Manip) (fuel : Nat) (page num : Int) (content : Bytes) : Option (Option Manip) :=
  (allPages m.get m.root fuel).map fun r => r.bind fun l =>
    if page < 0 ∨ page > l.length + 1 then none
    else (rootPages m).bind fun p => (m.objects.get p).bind fun s => (insertText s page.toNat num).map fun t =>
      { m with objects := (m.objects.set num content).set p t }

end Pdfer.Manipulate
