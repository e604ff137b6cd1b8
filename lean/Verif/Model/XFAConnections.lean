import Verif.Model.XFALocale

/-! Model of forms/xfa/xfa_connection_translator.go: reading and writing the XML of connection sets.

Simplifications as in Model/XFALocale; in addition an iteration order of a Go map is the order of a list, so "for every list" covers every order,
and values of type `interface{}` are texts, printed by `fmt.Sprintf("%v")` before (the reader only makes strings). -/

namespace Pdfer.XFASets

open Pdfer.Go Pdfer.XFA

/-- types/xfa_data_types.go – types.XFADataDescription. -/
structure DataDescription where
  ref : Bytes := []
  schema : Bytes := []
  nspace : Bytes := []
  properties : List (Bytes × Bytes) := []
deriving DecidableEq, Repr

/-- types/xfa_data_types.go – types.XFAConnection. -/
structure Connection where
  name : Bytes := []
  type : Bytes := []
  description : Option DataDescription := none
  properties : List (Bytes × Bytes) := []
deriving DecidableEq, Repr

/-- forms/xfa/xfa_connection_translator.go:52-59 – the attributes of a connection. -/
def connectionAttr (c : Connection) (a : Bytes × Bytes) : Connection :=
  if a.1 = b!"name" then { c with name := a.2 } else if a.1 = b!"type" then { c with type := a.2 } else c

/-- forms/xfa/xfa_connection_translator.go:68-77 – the attributes of a data description. -/
def descriptionAttr (d : DataDescription) (a : Bytes × Bytes) : DataDescription :=
  if a.1 = b!"ref" then { d with ref := a.2 }
  else if a.1 = b!"schema" then { d with schema := a.2 }
  else if a.1 = b!"namespace" then { d with nspace := a.2 }
  else d

/-- forms/xfa/xfa_connection_translator.go:19-28 – the result and the local variables of the loop. -/
structure CSt where
  set : List Connection := []
  cur : Option Connection := none
  value : Bytes := []
  inDesc : Bool := false
deriving DecidableEq, Repr

/-- forms/xfa/xfa_connection_translator.go:43-116 – a start element. -/
def cStart (st : CSt) (n : Bytes) (as : List (Bytes × Bytes)) : CSt :=
  if n = b!"connectionSet" then st
  else if n = b!"connection" then { st with cur := some (as.foldl connectionAttr {}) }
  else if n = b!"dataDescription" then
    (match st.cur with
      | some c => { st with inDesc := true, cur := some { c with description := some (as.foldl descriptionAttr (c.description.getD {})) } }
      | none => st)
  else if st.cur.isSome then { st with value := [] } else st

/-- forms/xfa/xfa_connection_translator.go:130-186 – the elements that are properties of the connection wherever they are, with their keys. -/
def cKnown (n : Bytes) : Option Bytes :=
  if n = b!"uri" ∨ n = b!"url" then some b!"uri"
  else if n ∈ [b!"wsdl", b!"operation", b!"soapAction", b!"user", b!"password", b!"dsn", b!"query"] then some n
  else none

/-- forms/xfa/xfa_connection_translator.go:118-201 – an end element. -/
def cEnd (st : CSt) (n : Bytes) : CSt :=
  if n = b!"connection" then { st with set := st.set ++ st.cur.toList, cur := none }
  else if n = b!"dataDescription" then { st with inDesc := false }
  else
    let v := trimSpace st.value
    match cKnown n with
    | some k => (match st.cur with
      | some c => if v ≠ [] then { st with cur := some { c with properties := Map.set c.properties k v } } else st
      | none => st)
    | none =>
      { st with
        value := []
        cur := match st.cur with
          | none => none
          | some c => if v = [] then some c else match st.inDesc, c.description with
            | true, some d => some { c with description := some { d with properties := Map.set d.properties n v } }
            | _, _ => some { c with properties := Map.set c.properties n v } }

/-- forms/xfa/xfa_connection_translator.go:30-206 – one token. -/
def cStep (st : CSt) : Tok → CSt
  | .start n as => cStart st n as
  | .close n => cEnd st n
  | .chars t => { st with value := st.value ++ t }

/-- forms/xfa/xfa_connection_translator.go:14-213 – `ParseXFAConnectionSet` on the tokens the decoder delivers before it ends or fails. -/
def parseConnectionSet (toks : List Tok) : List Connection := (toks.foldl cStep {}).set

/-- forms/xfa/xfa_connection_translator.go:277-291, 321-333 – the properties. -/
def encProps (ps : List (Bytes × Bytes)) : List Tok := ps.flatMap fun p => [.start p.1 [], .chars p.2, .close p.1]

/-- forms/xfa/xfa_connection_translator.go:300-339 – `encodeDataDescription`. -/
def encDescription (d : DataDescription) : List Tok :=
  [.start b!"dataDescription" (strAttr b!"ref" d.ref ++ strAttr b!"schema" d.schema ++ strAttr b!"namespace" d.nspace)] ++
  encProps d.properties ++ [.close b!"dataDescription"]

/-- forms/xfa/xfa_connection_translator.go:255-298 – `encodeConnection`. -/
def encConnection (c : Connection) : List Tok :=
  [.start b!"connection" (strAttr b!"name" c.name ++ strAttr b!"type" c.type)] ++ part encDescription c.description ++
  encProps c.properties ++ [.close b!"connection"]

/-- The names of all properties. -/
def cNames (s : List Connection) : List Bytes :=
  s.flatMap fun c => c.properties.map (·.1) ++ (match c.description with | some d => d.properties.map (·.1) | none => [])

/-- forms/xfa/xfa_connection_translator.go:216-253 – `ConnectionSetToXFA`: the tokens given to the encoder; `none`: it refuses an element
without a name. -/
def connectionSetToXFA (s : List Connection) : Option (List Tok) :=
  if [] ∈ cNames s then none
  else some ([.start b!"connectionSet" []] ++ s.flatMap encConnection ++ [.close b!"connectionSet"])

end Pdfer.XFASets
