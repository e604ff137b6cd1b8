import Verif.Model.Font

/-! What users and the OpenType specification expect of fonts. -/

namespace Pdfer.Spec.Font

open Pdfer.Go

/-- The 16-bit number at position `i` (most significant byte first). -/
def u16 (b : Bytes) (i : Nat) : Nat := (b.getD i 0).toNat * 256 + (b.getD (i + 1) 0).toNat

/-- The 32-bit number at position `i`. -/
def u32 (b : Bytes) (i : Nat) : Nat := u16 b i * 65536 + u16 b (i + 2)

/-- The calls that add characters to a font. -/
inductive Add where
  | rune (r : Int)
  | text (s : Bytes)

/-- The characters a call asks for: a rune, or the printable characters and spaces of a text. -/
def Add.asks (isPrint : Int → Bool) : Add → Int → Prop
  | .rune r, c => c = r
  | .text s, c => (∃ n ∈ Strings.runes s, c = (n : Int)) ∧ (isPrint c = true ∨ c = 32)

/-- The subset after a call. -/
def Add.run (isPrint : Int → Bool) (s : List Int) : Add → List Int
  | .rune r => Font.addRune s r
  | .text t => Font.addString isPrint s t

/-- The subset after a history of calls on a new font. -/
def subsetAfter (isPrint : Int → Bool) (h : List Add) : List Int := h.foldl (Add.run isPrint) []

/-! ### OpenType cmap subtables -/

/-- Number of groups of a format 12 subtable that are inside the subtable. -/
def groupCount (b : Bytes) : Nat := min (u32 b 12) ((b.length - 16) / 12)

/-- First character, last character and first glyph of a group (OpenType, cmap format 12: SequentialMapGroup). -/
def groupStart (b : Bytes) (i : Nat) : Nat := u32 b (16 + 12 * i)
def groupStop (b : Bytes) (i : Nat) : Nat := u32 b (20 + 12 * i)
def groupGlyph (b : Bytes) (i : Nat) : Nat := u32 b (24 + 12 * i)

/-- The character is in the group. -/
def InGroup (b : Bytes) (i c : Nat) : Prop := i < groupCount b ∧ groupStart b i ≤ c ∧ c ≤ groupStop b i

/-- Number of segments of a format 4 subtable. -/
def segCount (b : Bytes) : Nat := u16 b 6 / 2

/-- First and last character, delta and range offset of a segment (OpenType, cmap format 4). -/
def segStart (b : Bytes) (i : Nat) : Nat := u16 b (16 + 2 * segCount b + 2 * i)
def segStop (b : Bytes) (i : Nat) : Nat := u16 b (14 + 2 * i)
def segDelta (b : Bytes) (i : Nat) : Nat := u16 b (16 + 4 * segCount b + 2 * i)
def segRange (b : Bytes) (i : Nat) : Nat := u16 b (16 + 6 * segCount b + 2 * i)

/-- The glyph of a character of segment `i`: by the delta alone, or through the glyph array (0 = missing glyph). -/
def segGlyph (b : Bytes) (i c : Nat) : Nat :=
  if segRange b i = 0 then (c + segDelta b i) % 65536
  else
    let p := 16 + 6 * segCount b + 2 * i + segRange b i + 2 * (c - segStart b i)
    if p + 2 ≤ b.length then (if u16 b p = 0 then 0 else (u16 b p + segDelta b i) % 65536) else 0

/-- The character is in the segment. -/
def InSeg (b : Bytes) (i c : Nat) : Prop := i < segCount b ∧ segStart b i ≤ c ∧ c ≤ segStop b i

/-- A format 4 subtable as OpenType wants it: the four arrays are inside the subtable, and the segments are in increasing
order without overlap. -/
structure Conforming4 (b : Bytes) : Prop where
  long : 16 + 8 * segCount b ≤ b.length
  length : u16 b 2 ≤ b.length
  order : ∀ i j, i < j → j < segCount b → segStop b i < segStart b j
  each : ∀ i, i < segCount b → segStart b i ≤ segStop b i

/-- The advance width of a glyph (OpenType, hmtx): `n` long metrics of four bytes; the glyphs behind them have the last
advance width. -/
def advance (hmtx : Bytes) (n gid : Nat) : Nat := u16 hmtx (4 * (if gid < n then gid else n - 1))

/-- The encoding records of a cmap table that are inside the table: platform, encoding and offset of the subtable. -/
def cmapRecords (b : Bytes) : List (Nat × Nat × Nat) :=
  (List.range (min (u16 b 2) ((b.length - 4) / 8))).map fun i => (u16 b (4 + 8 * i), u16 b (6 + 8 * i), u32 b (8 + 8 * i))

/-- The subtable to use: the full Unicode one (3, 10), else the basic one (3, 1), else one of the Unicode platform. -/
def chosen (rs : List (Nat × Nat × Nat)) : Option Nat :=
  match (rs.filter fun r => r.1 == 3 && r.2.1 == 10).getLast? with
  | some r => some r.2.2
  | none =>
    match rs.find? fun r => r.1 == 3 && r.2.1 == 1 with
    | some r => some r.2.2
    | none => (rs.find? fun r => r.1 == 0).map (·.2.2)

/-! ### Font files for the examples -/

/-- A 16-bit and a 32-bit number, most significant byte first. -/
def w16 (n : Nat) : Bytes := [UInt8.ofNat (n / 256), UInt8.ofNat n]
def w32 (n : Nat) : Bytes := w16 (n / 65536) ++ w16 n

/-- The directory of a font file whose tables start at `off`. -/
def directory : Nat → List (Bytes × Bytes) → Bytes
  | _, [] => []
  | off, (tag, t) :: r => tag ++ w32 0 ++ w32 off ++ w32 t.length ++ directory (off + t.length) r

/-- A font file with the given tables. -/
def fontFile (ts : List (Bytes × Bytes)) : Bytes :=
  w32 65536 ++ w16 ts.length ++ List.replicate 6 0 ++ directory (12 + 16 * ts.length) ts ++ ts.flatMap (·.2)

/-- The required tables, all zero but the units per em (1000) and the number of glyphs. -/
def baseTables (glyphs : Nat) : List (Bytes × Bytes) :=
  [(b!"head", List.replicate 18 0 ++ w16 1000 ++ List.replicate 34 0), (b!"maxp", List.replicate 4 0 ++ w16 glyphs),
    (b!"hhea", List.replicate 36 0), (b!"name", List.replicate 6 0), (b!"post", List.replicate 32 0)]

/-- A cmap table with one subtable. -/
def cmapOf (platform encoding : Nat) (sub : Bytes) : Bytes := w16 0 ++ w16 1 ++ w16 platform ++ w16 encoding ++ w32 12 ++ sub

/-- A format 12 subtable with the given groups (first and last character, first glyph). -/
def format12 (gs : List (Nat × Nat × Nat)) : Bytes :=
  w16 12 ++ w16 0 ++ w32 (16 + 12 * gs.length) ++ w32 0 ++ w32 gs.length ++
    gs.flatMap fun g => w32 g.1 ++ w32 g.2.1 ++ w32 g.2.2

/-- A format 4 subtable with the given segments (first and last character, delta, range offset) and glyph array. -/
def format4 (gs : List (Nat × Nat × Nat × Nat)) (glyphs : List Nat) : Bytes :=
  w16 4 ++ w16 (16 + 8 * gs.length + 2 * glyphs.length) ++ w16 0 ++ w16 (2 * gs.length) ++ List.replicate 6 0 ++
    gs.flatMap (fun g => w16 g.2.1) ++ w16 0 ++ gs.flatMap (fun g => w16 g.1) ++ gs.flatMap (fun g => w16 g.2.2.1) ++
    gs.flatMap (fun g => w16 g.2.2.2) ++ glyphs.flatMap w16

end Pdfer.Spec.Font
