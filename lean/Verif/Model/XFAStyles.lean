import Verif.Model.XFALocale

/-! Model of forms/xfa/xfa_stylesheet_translator.go: reading and writing the XML of stylesheets.

Simplifications as in Model/XFALocale and Model/XFAConnections; 64 bit floating point numbers are a type `F` with `strconv.ParseFloat`,
`strconv.FormatFloat(_, 'f', -1, 64)`, zero and `> 0` as parameters.  A failing type assertion is a panic. -/

namespace Pdfer.XFASets

open Pdfer.Go Pdfer.XFA

/-- types/xfa_data_types.go – types.XFAStyleFont. -/
structure SFont (F : Type) where
  family : Bytes := []
  size : F
  weight : Bytes := []
  style : Bytes := []
  color : Bytes := []
  decoration : Bytes := []
deriving DecidableEq, Repr

/-- types/xfa_data_types.go – types.XFAStyleBorder. -/
structure SBorder (F : Type) where
  width : F
  style : Bytes := []
  color : Bytes := []
  radius : F
deriving DecidableEq, Repr

/-- types/xfa_data_types.go – types.XFAMargin and types.XFAPadding. -/
structure SBox (F : Type) where
  top : F
  right : F
  bottom : F
  left : F
deriving DecidableEq, Repr

/-- types/xfa_data_types.go – types.XFAPosition (x, y) and types.XFASize (width, height). -/
structure SPair (F : Type) where
  a : F
  b : F
deriving DecidableEq, Repr

/-- A value of the properties of a style; `other` is a value of any other type, as `%v` prints it. -/
inductive SVal (F : Type) where
  | float (x : F)
  | bool (x : Bool)
  | str (s : Bytes)
  | font (f : SFont F)
  | border (b : SBorder F)
  | margin (b : SBox F)
  | padding (b : SBox F)
  | position (p : SPair F)
  | size (p : SPair F)
  | other (s : Bytes)
deriving DecidableEq, Repr

/-- types/xfa_data_types.go – types.XFAStyle. -/
structure Style (F : Type) where
  name : Bytes := []
  type : Bytes := []
  properties : List (Bytes × SVal F) := []
deriving DecidableEq, Repr

/-- The operations on floating point numbers; `print` is `fmt.Sprintf("%v", _)`. -/
structure SFloats (F : Type) where
  parse : Bytes → Option F
  format : F → Bytes
  zero : F
  pos : F → Bool
  print : SVal F → Bytes

variable {F : Type}

/-! ### Reading -/

/-- `if val, err := strconv.ParseFloat(attr.Value, 64); err == nil { … = val }`. -/
def SFloats.floatOr (fl : SFloats F) (old : F) (v : Bytes) : F := (fl.parse v).getD old

/-- forms/xfa/xfa_stylesheet_translator.go:151-172 – `parseFontAttributes`. -/
def fontAttr (fl : SFloats F) (f : SFont F) (a : Bytes × Bytes) : SFont F :=
  if a.1 = b!"family" then { f with family := a.2 }
  else if a.1 = b!"size" then { f with size := fl.floatOr f.size a.2 }
  else if a.1 = b!"weight" then { f with weight := a.2 }
  else if a.1 = b!"style" then { f with style := a.2 }
  else if a.1 = b!"color" then { f with color := a.2 }
  else if a.1 = b!"decoration" then { f with decoration := a.2 }
  else f

/-- forms/xfa/xfa_stylesheet_translator.go:174-193 – `parseBorderAttributes`. -/
def borderAttr (fl : SFloats F) (b : SBorder F) (a : Bytes × Bytes) : SBorder F :=
  if a.1 = b!"width" then { b with width := fl.floatOr b.width a.2 }
  else if a.1 = b!"style" then { b with style := a.2 }
  else if a.1 = b!"color" then { b with color := a.2 }
  else if a.1 = b!"radius" then { b with radius := fl.floatOr b.radius a.2 }
  else b

/-- forms/xfa/xfa_stylesheet_translator.go:195-239 – `parseMarginAttributes` and `parsePaddingAttributes`. -/
def boxAttr (fl : SFloats F) (b : SBox F) (a : Bytes × Bytes) : SBox F :=
  if a.1 = b!"top" then { b with top := fl.floatOr b.top a.2 }
  else if a.1 = b!"right" then { b with right := fl.floatOr b.right a.2 }
  else if a.1 = b!"bottom" then { b with bottom := fl.floatOr b.bottom a.2 }
  else if a.1 = b!"left" then { b with left := fl.floatOr b.left a.2 }
  else b

/-- forms/xfa/xfa_stylesheet_translator.go:241-269 – `parsePositionAttributes` and `parseSizeAttributes`. -/
def pairAttr (fl : SFloats F) (ka kb : Bytes) (p : SPair F) (a : Bytes × Bytes) : SPair F :=
  if a.1 = ka then { p with a := fl.floatOr p.a a.2 } else if a.1 = kb then { p with b := fl.floatOr p.b a.2 } else p

/-- forms/xfa/xfa_stylesheet_translator.go:271-285 – `parseStyleValue`. -/
def parseStyleValue (fl : SFloats F) (v : Bytes) : SVal F :=
  match fl.parse v with
  | some x => .float x
  | none => if v = b!"true" ∨ v = b!"1" then .bool true else if v = b!"false" ∨ v = b!"0" then .bool false else .str v

/-- forms/xfa/xfa_stylesheet_translator.go:20-29 – the result and the local variables of the loop. -/
structure YSt (F : Type) where
  set : List (Style F) := []
  cur : Option (Style F) := none
  prop : Bytes := []
  value : Bytes := []

/-- forms/xfa/xfa_stylesheet_translator.go:56-62 – the attributes of a style. -/
def styleAttr (s : Style F) (a : Bytes × Bytes) : Style F :=
  if a.1 = b!"name" then { s with name := a.2 } else if a.1 = b!"type" then { s with type := a.2 } else s

/-- A part of the current style is set. -/
def setPart (st : YSt F) (n : Bytes) (k : Option (SVal F) → Res (SVal F)) : Res (YSt F) :=
  match st.cur with
  | none => .ok st
  | some s => (k (Map.get s.properties n)).bind fun v => .ok { st with prop := n, cur := some { s with properties := Map.set s.properties n v } }

/-- forms/xfa/xfa_stylesheet_translator.go:44-109 – a start element. -/
def yStart (fl : SFloats F) (st : YSt F) (n : Bytes) (as : List (Bytes × Bytes)) : Res (YSt F) :=
  if n = b!"stylesheet" then .ok st
  else if n = b!"style" then .ok { st with cur := some (as.foldl styleAttr {}) }
  else if n = b!"font" then setPart st n fun _ => .ok (.font (as.foldl (fontAttr fl) { size := fl.zero }))
  else if n = b!"border" then setPart st n fun _ => .ok (.border (as.foldl (borderAttr fl) { width := fl.zero, radius := fl.zero }))
  else if n = b!"margin" then setPart st n fun
    | none => .ok (.margin (as.foldl (boxAttr fl) ⟨fl.zero, fl.zero, fl.zero, fl.zero⟩))
    | some (.margin m) => .ok (.margin (as.foldl (boxAttr fl) m))
    | some _ => .panic
  else if n = b!"padding" then setPart st n fun
    | none => .ok (.padding (as.foldl (boxAttr fl) ⟨fl.zero, fl.zero, fl.zero, fl.zero⟩))
    | some (.padding m) => .ok (.padding (as.foldl (boxAttr fl) m))
    | some _ => .panic
  else if n = b!"position" then setPart st n fun
    | none => .ok (.position (as.foldl (pairAttr fl b!"x" b!"y") ⟨fl.zero, fl.zero⟩))
    | some (.position m) => .ok (.position (as.foldl (pairAttr fl b!"x" b!"y") m))
    | some _ => .panic
  else if n = b!"size" then setPart st n fun
    | none => .ok (.size (as.foldl (pairAttr fl b!"width" b!"height") ⟨fl.zero, fl.zero⟩))
    | some (.size m) => .ok (.size (as.foldl (pairAttr fl b!"width" b!"height") m))
    | some _ => .panic
  else .ok (if st.cur.isSome then { st with prop := n, value := [] } else st)

/-- The names of the parts. -/
def isPart (n : Bytes) : Bool := [b!"font", b!"border", b!"margin", b!"padding", b!"position", b!"size"].contains n

/-- forms/xfa/xfa_stylesheet_translator.go:111-135 – an end element. -/
def yEnd (fl : SFloats F) (st : YSt F) (n : Bytes) : YSt F :=
  if n = b!"style" then { st with set := st.set ++ st.cur.toList, cur := none, prop := [] }
  else if isPart n then { st with prop := [] }
  else
    let v := trimSpace st.value
    { st with
      value := []
      cur := st.cur.map fun s => if st.prop ≠ [] ∧ v ≠ [] then { s with properties := Map.set s.properties n (parseStyleValue fl v) } else s }

/-- forms/xfa/xfa_stylesheet_translator.go:31-142 – one token. -/
def yStep (fl : SFloats F) (st : YSt F) : Tok → Res (YSt F)
  | .start n as => yStart fl st n as
  | .close n => .ok (yEnd fl st n)
  | .chars t => .ok (if st.cur.isSome ∧ st.prop ≠ [] then { st with value := st.value ++ t } else st)

/-- forms/xfa/xfa_stylesheet_translator.go:31-142 – the loop. -/
def yRun (fl : SFloats F) : List Tok → YSt F → Res (YSt F)
  | [], st => .ok st
  | t :: ts, st => (yStep fl st t).bind (yRun fl ts)

/-- forms/xfa/xfa_stylesheet_translator.go:15-149 – `ParseXFAStylesheet` on the tokens the decoder delivers before it ends or fails. -/
def parseStylesheet (fl : SFloats F) (toks : List Tok) : Res (List (Style F)) := (yRun fl toks {}).bind fun st => .ok st.set

/-! ### Writing -/

/-- An attribute that is written when it is positive. -/
def floatAttr (fl : SFloats F) (k : Bytes) (x : F) : List (Bytes × Bytes) := if fl.pos x then [(k, fl.format x)] else []

/-- forms/xfa/xfa_stylesheet_translator.go:407-438 – `encodeStyleFont`. -/
def encFont (fl : SFloats F) (f : SFont F) : List Tok :=
  bare b!"font" (strAttr b!"family" f.family ++ floatAttr fl b!"size" f.size ++ strAttr b!"weight" f.weight ++ strAttr b!"style" f.style ++
    strAttr b!"color" f.color ++ strAttr b!"decoration" f.decoration)

/-- forms/xfa/xfa_stylesheet_translator.go:440-465 – `encodeStyleBorder`. -/
def encBorder (fl : SFloats F) (b : SBorder F) : List Tok :=
  bare b!"border" (floatAttr fl b!"width" b.width ++ strAttr b!"style" b.style ++ strAttr b!"color" b.color ++ floatAttr fl b!"radius" b.radius)

/-- forms/xfa/xfa_stylesheet_translator.go:467-519 – `encodeMargin` and `encodePadding`. -/
def encBox (fl : SFloats F) (n : Bytes) (b : SBox F) : List Tok :=
  bare n (floatAttr fl b!"top" b.top ++ floatAttr fl b!"right" b.right ++ floatAttr fl b!"bottom" b.bottom ++ floatAttr fl b!"left" b.left)

/-- forms/xfa/xfa_stylesheet_translator.go:521-561 – `encodePosition` and `encodeSize`. -/
def encPair2 (fl : SFloats F) (n ka kb : Bytes) (p : SPair F) : List Tok := bare n (floatAttr fl ka p.a ++ floatAttr fl kb p.b)

/-- forms/xfa/xfa_stylesheet_translator.go:327-405 – `encodeStyle`. -/
def encStyle (fl : SFloats F) (s : Style F) : List Tok :=
  let p := fun n => Map.get s.properties n
  [.start b!"style" (strAttr b!"name" s.name ++ strAttr b!"type" s.type)] ++
  (match p b!"font" with | some (.font f) => encFont fl f | _ => []) ++
  (match p b!"border" with | some (.border f) => encBorder fl f | _ => []) ++
  (match p b!"margin" with | some (.margin f) => encBox fl b!"margin" f | _ => []) ++
  (match p b!"padding" with | some (.padding f) => encBox fl b!"padding" f | _ => []) ++
  (match p b!"position" with | some (.position f) => encPair2 fl b!"position" b!"x" b!"y" f | _ => []) ++
  (match p b!"size" with | some (.size f) => encPair2 fl b!"size" b!"width" b!"height" f | _ => []) ++
  (s.properties.filter fun e => !isPart e.1).flatMap (fun e => [.start e.1 [], .chars (fl.print e.2), .close e.1]) ++ [.close b!"style"]

/-- forms/xfa/xfa_stylesheet_translator.go:288-325 – `StylesheetToXFA`: the tokens given to the encoder; `none`: it refuses an element without
a name. -/
def stylesheetToXFA (fl : SFloats F) (s : List (Style F)) : Option (List Tok) :=
  if [] ∈ s.flatMap (fun y => y.properties.map (·.1)) then none
  else some ([.start b!"stylesheet" []] ++ s.flatMap (encStyle fl) ++ [.close b!"stylesheet"])

end Pdfer.XFASets
