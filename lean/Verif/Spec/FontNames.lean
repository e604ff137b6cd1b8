import Verif.Spec.Font
import Verif.Spec.Encoding

/-! The name table of OpenType fonts and the named encodings of PDF (ISO 32000-1, annex D). -/

namespace Pdfer.Spec.FontNames

open Pdfer.Go Pdfer.Spec.Font

/-! ### The name table -/

/-- Record `i` of a name table: platform, name identifier, length and offset of the text. -/
def platform (b : Bytes) (i : Nat) : Nat := u16 b (6 + 12 * i)
def nameId (b : Bytes) (i : Nat) : Nat := u16 b (12 + 12 * i)
def textLength (b : Bytes) (i : Nat) : Nat := u16 b (14 + 12 * i)
def textStart (b : Bytes) (i : Nat) : Nat := u16 b 4 + u16 b (16 + 12 * i)

/-- The bytes of the text of a record. -/
def textBytes (b : Bytes) (i : Nat) : Bytes := (b.drop (textStart b i)).take (textLength b i)

/-- The record and its text are inside the table. -/
def Inside (b : Bytes) (i : Nat) : Prop := i < u16 b 2 ∧ 18 + 12 * i ≤ b.length ∧ textStart b i + textLength b i ≤ b.length

instance (b : Bytes) (i : Nat) : Decidable (Inside b i) := by unfold Inside; infer_instance

/-- The 16-bit units of a text, most significant byte first. -/
def units : Bytes → List Int
  | a :: b :: r => ((a.toNat * 256 + b.toNat : Nat) : Int) :: units r
  | _ => []

/-- The text of a record of the Windows platform (3): UTF-16 units, here each taken as a character. -/
def windowsText (d : Bytes) : Bytes := Spec.Enc.utf8 (units d)

/-- The texts that a reader of Windows names (3, an even number of bytes) and of plain bytes under the Unicode platform (0) finds for an
identifier, in the order of the table. -/
def texts (b : Bytes) (id : Nat) : List Bytes :=
  (List.range (u16 b 2)).filterMap fun i =>
    if Inside b i ∧ nameId b i = id then
      if platform b i = 3 then (if textLength b i % 2 = 0 then some (windowsText (textBytes b i)) else none)
      else if platform b i = 0 then some (textBytes b i) else none
    else none

/-- The first text that is not empty. -/
def first : List Bytes → Bytes
  | [] => []
  | t :: r => if t = [] then first r else t

/-! ### Named encodings -/

/-- WinAnsiEncoding: Latin-1 but for the codes 128 to 159. -/
def winAnsi (c : Nat) : Option Nat :=
  if (32 ≤ c ∧ c ≤ 126) ∨ (160 ≤ c ∧ c ≤ 255) then some c
  else ([(128, 0x20AC), (130, 0x201A), (131, 0x192), (132, 0x201E), (133, 0x2026), (134, 0x2020), (135, 0x2021), (136, 0x2C6), (137, 0x2030),
    (138, 0x160), (139, 0x2039), (140, 0x152), (142, 0x17D), (145, 0x2018), (146, 0x2019), (147, 0x201C), (148, 0x201D), (149, 0x2022),
    (150, 0x2013), (151, 0x2014), (152, 0x2DC), (153, 0x2122), (154, 0x161), (155, 0x203A), (156, 0x153), (158, 0x17E), (159, 0x178)].find?
      fun e => e.1 == c).map (·.2)

/-- The characters of MacRomanEncoding from code 128. -/
def macUpper : List Nat :=
  [0xC4, 0xC5, 0xC7, 0xC9, 0xD1, 0xD6, 0xDC, 0xE1, 0xE0, 0xE2, 0xE4, 0xE3, 0xE5, 0xE7, 0xE9, 0xE8,
   0xEA, 0xEB, 0xED, 0xEC, 0xEE, 0xEF, 0xF1, 0xF3, 0xF2, 0xF4, 0xF6, 0xF5, 0xFA, 0xF9, 0xFB, 0xFC,
   0x2020, 0xB0, 0xA2, 0xA3, 0xA7, 0x2022, 0xB6, 0xDF, 0xAE, 0xA9, 0x2122, 0xB4, 0xA8, 0x2260, 0xC6, 0xD8,
   0x221E, 0xB1, 0x2264, 0x2265, 0xA5, 0xB5, 0x2202, 0x2211, 0x220F, 0x3C0, 0x222B, 0xAA, 0xBA, 0x3A9, 0xE6, 0xF8,
   0xBF, 0xA1, 0xAC, 0x221A, 0x192, 0x2248, 0x2206, 0xAB, 0xBB, 0x2026, 0xA0, 0xC0, 0xC3, 0xD5, 0x152, 0x153,
   0x2013, 0x2014, 0x201C, 0x201D, 0x2018, 0x2019, 0xF7, 0x25CA, 0xFF, 0x178, 0x2044, 0xA4, 0x2039, 0x203A, 0xFB01, 0xFB02,
   0x2021, 0xB7, 0x201A, 0x201E, 0x2030, 0xC2, 0xCA, 0xC1, 0xCB, 0xC8, 0xCD, 0xCE, 0xCF, 0xCC, 0xD3, 0xD4,
   0xF8FF, 0xD2, 0xDA, 0xDB, 0xD9, 0x131, 0x2C6, 0x2DC, 0xAF, 0x2D8, 0x2D9, 0x2DA, 0xB8, 0x2DD, 0x2DB, 0x2C7]

/-- MacRomanEncoding (code 219 is the currency sign in PDF, the Euro sign in newer Mac OS fonts). -/
def macRoman (c : Nat) : Option Nat :=
  if 32 ≤ c ∧ c ≤ 126 then some c else if 128 ≤ c then macUpper[c - 128]? else none

/-- StandardEncoding: ASCII with two curly quotes, and the codes of the Adobe standard character set. -/
def standard (c : Nat) : Option Nat :=
  if c = 39 then some 0x2019 else if c = 96 then some 0x2018 else if 32 ≤ c ∧ c ≤ 126 then some c
  else ([(161, 0xA1), (162, 0xA2), (163, 0xA3), (164, 0x2044), (165, 0xA5), (166, 0x192), (167, 0xA7), (168, 0xA4), (169, 0x27), (170, 0x201C),
    (171, 0xAB), (172, 0x2039), (173, 0x203A), (174, 0xFB01), (175, 0xFB02), (177, 0x2013), (178, 0x2020), (179, 0x2021), (180, 0xB7),
    (182, 0xB6), (183, 0x2022), (184, 0x201A), (185, 0x201E), (186, 0x201D), (187, 0xBB), (188, 0x2026), (189, 0x2030), (191, 0xBF),
    (193, 0x60), (194, 0xB4), (195, 0x2C6), (196, 0x2DC), (197, 0xAF), (198, 0x2D8), (199, 0x2D9), (200, 0xA8), (202, 0x2DA), (203, 0xB8),
    (205, 0x2DD), (206, 0x2DB), (207, 0x2C7), (208, 0x2014), (225, 0xC6), (227, 0xAA), (232, 0x141), (233, 0xD8), (234, 0x152), (235, 0xBA),
    (241, 0xE6), (245, 0x131), (248, 0x142), (249, 0xF8), (250, 0x153), (251, 0xDF)].find? fun e => e.1 == c).map (·.2)

/-- The named encodings (MacExpertEncoding is left out). -/
def named : List (Bytes × (Nat → Option Nat)) :=
  [(b!"WinAnsiEncoding", winAnsi), (b!"MacRomanEncoding", macRoman), (b!"StandardEncoding", standard)]

end Pdfer.Spec.FontNames
