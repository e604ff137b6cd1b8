import Verif.Model.Image
import Verif.Spec.Content
import Verif.Spec.Builder

/-! What a JPEG file says about its size, and where the pixels of an image belong. -/

namespace Pdfer.Spec.Image

/-- Two bytes, the higher first. -/
def two (n : Nat) : Bytes := [UInt8.ofNat (n / 256), UInt8.ofNat (n % 256)]

/-- A marker segment of a JPEG file (ITU-T T.81, B.1.1.4): the marker, a length that counts itself, and the parameters. -/
structure Segment where
  marker : UInt8
  body : Bytes

/-- The bytes of a segment. -/
def Segment.bytes (s : Segment) : Bytes := 0xFF :: s.marker :: (two (s.body.length + 2) ++ s.body)

/-- A segment that is not a frame header: tables, application data, comments. -/
def Segment.Plain (s : Segment) : Prop :=
  s.body.length + 2 < 65536 ∧ s.marker ≠ 0xFF ∧ ¬ (0xC0 ≤ s.marker ∧ s.marker ≤ 0xCF ∧ s.marker ≠ 0xC4 ∧ s.marker ≠ 0xC8 ∧ s.marker ≠ 0xCC)

/-- A frame header (ITU-T T.81, B.2.2): marker SOF*m*, precision, size and number of components; `more` are the component
parameters. -/
def frame (m precision : UInt8) (height width : Nat) (n : UInt8) (more : Bytes) : Segment :=
  ⟨0xC0 + m, precision :: (two height ++ two width ++ n :: more)⟩

/-- The colour space of an image with so many components. -/
def space (n : UInt8) : Bytes :=
  if n = 1 then b!"/DeviceGray" else if n = 4 then b!"/DeviceCMYK" else b!"/DeviceRGB"

end Pdfer.Spec.Image
