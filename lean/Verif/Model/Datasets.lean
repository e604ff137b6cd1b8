import Verif.Model.XFA

/-! Model of forms/xfa/xfa_datasets_translator.go: reading and writing the XML of the form data (the `datasets` stream).

Simplifications: the XML encoder and decoder of the standard library are not modelled, both functions work on tokens (`XFA.Tok`, local names
only); an iteration order of a Go map is the order of a list, so "for every list" covers every order; 64 bit floating point numbers are a
type `F` with `strconv.ParseFloat` and `strconv.FormatFloat(_, 'f', -1, 64)` as parameters; values of other Go types than
nil/bool/int/float64/string (formatted by `fmt.Sprintf("%v")`) are left out; `verbose` is off. -/

namespace Pdfer.Datasets

open Pdfer.Go Pdfer.XFA

/-- A value of `map[string]interface{}` in types.XFADatasets. -/
inductive DVal (F : Type) where
  | nil
  | bool (b : Bool)
  | int (n : Int)
  | float (x : F)
  | str (s : Bytes)
deriving DecidableEq, Repr

/-- types/xfa_data_types.go:10-15 – types.XFAFieldGroup. -/
inductive Group (F : Type) where
  | mk (name : Bytes) (fields : List (Bytes × DVal F)) (groups : List (Group F))

/-- types/xfa_data_types.go:11 – the `Name` of a group. -/
def Group.name {F : Type} : Group F → Bytes | .mk n _ _ => n

/-- types/xfa_data_types.go:13 – the `Fields` of a group. -/
def Group.fields {F : Type} : Group F → List (Bytes × DVal F) | .mk _ f _ => f

/-- types/xfa_data_types.go:14 – the `Groups` of a group. -/
def Group.groups {F : Type} : Group F → List (Group F) | .mk _ _ g => g

/-- types/xfa_data_types.go:5-8 – types.XFADatasets. -/
structure Datasets (F : Type) where
  fields : List (Bytes × DVal F) := []
  groups : List (Group F) := []

/-- `strconv.ParseFloat(_, 64)` (`none`: error) and `strconv.FormatFloat(_, 'f', -1, 64)`. -/
structure Floats (F : Type) where
  parse : Bytes → Option F
  format : F → Bytes

variable {F : Type}

/-- forms/xfa/xfa_datasets_translator.go:141-169 – `parseFieldValue`. -/
def parseFieldValue (fl : Floats F) (v : Bytes) : DVal F :=
  if v = [] then .str []
  else if v = b!"true" ∨ v = b!"1" then .bool true
  else if v = b!"false" ∨ v = b!"0" then .bool false
  else match atoi v with
    | some n => .int n
    | none => match fl.parse v with
      | some x => .float x
      | none => .str v

/-- forms/xfa/xfa_datasets_translator.go:280-303 – `formatFieldValue`. -/
def formatFieldValue (fl : Floats F) : DVal F → Bytes
  | .nil => []
  | .bool true => b!"true"
  | .bool false => b!"false"
  | .int n => itoa n
  | .float x => fl.format x
  | .str s => s

/-- forms/xfa/xfa_datasets_translator.go:305-321 – `isStandardXFAElement` (`strings.ToLower` on ASCII letters only). -/
def standard (n : Bytes) : Bool :=
  [b!"data", b!"field", b!"value", b!"items", b!"text", b!"label", b!"desc", b!"bind", b!"validate", b!"event", b!"script"].contains
    (toLower n)

/-! ### Reading -/

/-- forms/xfa/xfa_datasets_translator.go:20-35 – the local variables of the loop. `stack` has its last element in front. -/
structure St (F : Type) where
  data : Datasets F := {}
  cur : Option (Group F) := none
  name : Bytes := []
  value : Bytes := []
  inData : Bool := false
  inField : Bool := false
  inValue : Bool := false
  inGroup : Bool := false
  stack : List (Group F) := []

/-- forms/xfa/xfa_datasets_translator.go:50-82 – a start element. -/
def onStart (st : St F) (n : Bytes) (attrs : List (Bytes × Bytes)) : St F :=
  if n = b!"data" then { st with inData := true }
  else if n = b!"field" then
    { st with inField := true, value := []
              name := attrs.foldl (fun nm a => if a.1 = b!"name" then a.2 else nm) st.name }
  else if n = b!"value" then (if st.inField then { st with inValue := true, value := [] } else st)
  else if st.inData && !standard n then
    { st with inGroup := true
              stack := match st.cur with | some g => g :: st.stack | none => st.stack
              cur := some (.mk n [] []) }
  else st

/-- forms/xfa/xfa_datasets_translator.go:84-125 – an end element. -/
def onEnd (fl : Floats F) (st : St F) (n : Bytes) : St F :=
  if n = b!"data" then { st with inData := false }
  else if n = b!"field" then
    let v := parseFieldValue fl (trimSpace st.value)
    let st := if st.name ≠ [] then
        (match st.cur with
          | some (.mk gn gf gg) => { st with cur := some (.mk gn (Map.set gf st.name v) gg) }
          | none => { st with data := { st.data with fields := Map.set st.data.fields st.name v } })
      else st
    { st with inField := false, name := [], value := [] }
  else if n = b!"value" then { st with inValue := false }
  else match st.inGroup, st.cur with
    | true, some g =>
      if n = g.name then
        (match st.stack with
          | .mk pn pf pg :: rest => { st with cur := some (.mk pn pf (pg ++ [g])), stack := rest, inGroup := false }
          | [] => { st with data := { st.data with groups := st.data.groups ++ [g] }, cur := none, inGroup := false })
      else st
    | _, _ => st

/-- forms/xfa/xfa_datasets_translator.go:37-131 – one token. -/
def step (fl : Floats F) (st : St F) : Tok → St F
  | .start n attrs => onStart st n attrs
  | .close n => onEnd fl st n
  | .chars t => if st.inValue && st.inField then { st with value := st.value ++ t } else st

/-- forms/xfa/xfa_datasets_translator.go:15-138 – `ParseXFADatasets` on the tokens the decoder delivers before it ends or fails. -/
def parseDatasets (fl : Floats F) (toks : List Tok) : Datasets F := (toks.foldl (step fl) {}).data

/-! ### Writing -/

/-- forms/xfa/xfa_datasets_translator.go:218-250 – `encodeField`. -/
def encField (fl : Floats F) (f : Bytes × DVal F) : List Tok :=
  [.start b!"field" [(b!"name", f.1)], .start b!"value" [], .chars (formatFieldValue fl f.2), .close b!"value", .close b!"field"]

mutual
/-- forms/xfa/xfa_datasets_translator.go:252-278 – `encodeFieldGroup` (the encoder refuses an element without a name). -/
def encGroup (fl : Floats F) : Group F → Option (List Tok)
  | .mk n fs gs =>
    if n = [] then none
    else (encGroups fl gs).map fun t => .start n [] :: (fs.flatMap (encField fl) ++ t ++ [.close n])
/-- forms/xfa/xfa_datasets_translator.go:194-199, 266-271 – the groups of a list. -/
def encGroups (fl : Floats F) : List (Group F) → Option (List Tok)
  | [] => some []
  | g :: gs => do return (← encGroup fl g) ++ (← encGroups fl gs)
end

/-- forms/xfa/xfa_datasets_translator.go:173-215 – `DatasetsToXFA`: the tokens given to the encoder, `none` when it returns an error. -/
def datasetsToXFA (fl : Floats F) (d : Datasets F) : Option (List Tok) :=
  (encGroups fl d.groups).map fun t => .start b!"data" [] :: (d.fields.flatMap (encField fl) ++ t ++ [.close b!"data"])

end Pdfer.Datasets
