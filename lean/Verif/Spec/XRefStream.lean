import Verif.Model.Writer

/-! Specifications for cross-reference streams, object streams and PNG predictors. -/

namespace Pdfer.Spec

open Pdfer.Go

/-- What the proofs need to know about zlib: compressed data is not empty and does not begin with white
space (it begins with 0x78), and the reader returns the original data, ignoring a newline that follows. -/
structure ZlibLike (z : Bytes → Bytes) (unz : Bytes → Option Bytes) : Prop where
  nonempty : ∀ d, z d ≠ []
  head : ∀ d c, (z d).head? = some c → c ≠ 13 ∧ c ≠ 10 ∧ c ≠ 32 ∧ c ≠ 9
  inverse : ∀ d, unz (z d ++ b!"\n") = some d

/-- `pat` occurs in `s` somewhere. -/
def Occurs (pat s : Bytes) : Prop := ∃ a b, s = a ++ pat ++ b

/-- ISO 32000-1, 7.5.7: offsets of the objects of an object stream, relative to the first one, when the
objects are separated by one space. -/
def objOffsets : Nat → List Bytes → List Nat
  | _, [] => []
  | o, c :: cs => o :: objOffsets (o + c.length + 1) cs

/-- Words separated by single spaces. -/
def spaced : List Bytes → Bytes
  | [] => []
  | [a] => a
  | a :: rest => a ++ b!" " ++ spaced rest

/-- ISO 32000-1, 7.5.7: the header of an object stream, `num offset num offset ...`. -/
def objHeader (objs : List (Nat × Bytes)) : Bytes :=
  spaced ((objs.zip (objOffsets 0 (objs.map (·.2)))).flatMap (fun e => [natDec e.1.1, natDec e.2]))

/-- A conforming object stream: the value of /First and the decoded data. -/
def objStream (objs : List (Nat × Bytes)) : Nat × Bytes :=
  ((objHeader objs).length + 1, objHeader objs ++ b!" " ++ spaced (objs.map (·.2)))

/-- White space at the end of an object is not significant. -/
def rstrip (c : Bytes) : Bytes := (c.reverse.dropWhile (fun b => b == 13 || b == 10 || b == 32 || b == 9)).reverse

/-- PNG filter types with an encoder (RFC 2083, section 6): the filtered row given the row above. -/
inductive PngFilter where
  | none | sub | up
  deriving DecidableEq

/-- The filter-type byte. -/
def PngFilter.byte : PngFilter → UInt8
  | .none => 0
  | .sub => 1
  | .up => 2

/-- Difference with the byte to the left. -/
def pngSub (row : Bytes) : Bytes := List.zipWith (· - ·) row (0 :: row)

/-- The filtered row. -/
def PngFilter.apply (f : PngFilter) (above row : Bytes) : Bytes :=
  match f with
  | .none => row
  | .sub => pngSub row
  | .up => List.zipWith (· - ·) row above

/-- A predictor-encoded image: each row filtered with its own filter. -/
def pngEncode : Bytes → List (PngFilter × Bytes) → Bytes
  | _, [] => []
  | above, (f, row) :: rest => f.byte :: (f.apply above row ++ pngEncode row rest)

end Pdfer.Spec
