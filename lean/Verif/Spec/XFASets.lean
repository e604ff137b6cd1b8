import Verif.Model.XFAConnections
import Verif.Model.XFAConfig
import Verif.Model.XFAStyles

/-! What survives writing locale sets, connection sets, configurations and stylesheets as XML and reading them again. -/

namespace Pdfer.Spec.XFASets

open Pdfer.Go Pdfer.XFASets

/-- The integers of a 64 bit `int`. -/
def IntRange (n : Int) : Prop := -9223372036854775808 ≤ n ∧ n ≤ 9223372036854775807

/-- A text without white space at its ends. -/
def NoEnds (t : Bytes) : Prop := trimSpace t = t

/-! ### Locale sets -/

/-- A number below zero is not written, so zero is read. -/
def numBack (n : Int) : Int := max 0 n

/-- The holidays that come back: without white space at the ends, without empty ones, and without those in which the word "holiday" occurs. -/
def holidaysBack (hs : List Bytes) : List Bytes :=
  ((hs.filter fun h => !contains h b!"holiday").map trimSpace).filter fun h => h ≠ []

/-- A locale that comes back. -/
def localeBack (l : Locale) : Locale :=
  { l with
    calendar := l.calendar.map fun c => { c with holidays := holidaysBack c.holidays }
    currency := l.currency.map fun c => { c with precision := numBack c.precision }
    numberPattern := l.numberPattern.map fun p => { p with precision := numBack p.precision } }

/-- Precisions are Go integers. -/
def LocaleInts (l : Locale) : Prop :=
  (∀ c, l.currency = some c → IntRange c.precision) ∧ (∀ p, l.numberPattern = some p → IntRange p.precision)

/-- Nothing of the locale is lost: no negative precision, no holiday that is empty, has white space at an end or has the word "holiday" in it. -/
def LocalePlain (l : Locale) : Prop :=
  (∀ c, l.calendar = some c → ∀ h ∈ c.holidays, h ≠ [] ∧ NoEnds h ∧ contains h b!"holiday" = false) ∧
  (∀ c, l.currency = some c → 0 ≤ c.precision) ∧ (∀ p, l.numberPattern = some p → 0 ≤ p.precision)

/-! ### Connection sets -/

/-- The elements that are taken as properties of the connection wherever they are. -/
def knownNames : List Bytes := [b!"uri", b!"url", b!"wsdl", b!"operation", b!"soapAction", b!"user", b!"password", b!"dsn", b!"query"]

/-- The elements that are not taken as properties. -/
def structural : List Bytes := [b!"connectionSet", b!"connection", b!"dataDescription"]

/-- A property comes back: its value is a text without white space at the ends, and its name is not that of another element. -/
def PropPlain (p : Bytes × Bytes) : Prop := p.1 ∉ structural ∧ p.2 ≠ [] ∧ NoEnds p.2

/-- Nothing of the connection is lost. -/
def ConnectionPlain (c : Connection) : Prop :=
  (∀ p ∈ c.properties, PropPlain p ∧ p.1 ≠ b!"url") ∧ (c.properties.map (·.1)).Nodup ∧
  ∀ d, c.description = some d → (∀ p ∈ d.properties, PropPlain p ∧ p.1 ∉ knownNames) ∧ (d.properties.map (·.1)).Nodup

/-- The same properties, in any order. -/
def SameProps {V : Type} (a b : List (Bytes × V)) : Prop := ∀ k, Map.get a k = Map.get b k

/-- The same connection, up to the order of the properties (which are maps in Go). -/
def SameConnection (a b : Connection) : Prop :=
  a.name = b.name ∧ a.type = b.type ∧ SameProps a.properties b.properties ∧
  match a.description, b.description with
  | none, none => True
  | some d, some e => d.ref = e.ref ∧ d.schema = e.schema ∧ d.nspace = e.nspace ∧ SameProps d.properties e.properties
  | _, _ => False

/-! ### Configurations -/

/-- The elements of a configuration that are not taken as properties. -/
def configNames : List Bytes :=
  [b!"config", b!"present", b!"validate", b!"submit", b!"destination", b!"acrobat", b!"common", b!"output", b!"script", b!"pdf", b!"xdp",
    b!"print", b!"interactive"]

/-- The present section that comes back: without `xdp`, `print` and `script`. -/
def presentBack (p : CfgPresent) : CfgPresent :=
  { pdf := p.pdf, renderPolicy := p.renderPolicy, outputPolicy := p.outputPolicy,
    interactive := p.interactive.map fun i => { i with currentPage := numBack i.currentPage } }

/-- The configuration that comes back: the tests of the validate section, the settings of the common and output sections, the properties of the
submit section, the script and trace sections and all further properties are lost. -/
def configBack (c : Config) : Config :=
  { present := c.present.map presentBack
    validate := c.validate.map fun _ => {}
    submit := c.submit.map fun s => { s with properties := [] }
    destination := c.destination
    acrobat := c.acrobat.map fun a => { a with autoSaveTime := numBack a.autoSaveTime }
    common := c.common.map fun _ => {}
    output := c.output.map fun _ => {} }

/-- The integers are Go integers. -/
def ConfigInts (c : Config) : Prop :=
  (∀ p, c.present = some p → ∀ i, p.interactive = some i → IntRange i.currentPage) ∧ (∀ a, c.acrobat = some a → IntRange a.autoSaveTime)

/-- A configuration that has only what comes back. -/
def ConfigPlain (c : Config) : Prop :=
  (∀ p, c.present = some p → p.xdp = none ∧ p.print = none ∧ p.script = none ∧ ∀ i, p.interactive = some i → 0 ≤ i.currentPage) ∧
  (∀ v, c.validate = some v → v = {}) ∧ (∀ s, c.submit = some s → s.properties = []) ∧
  (∀ a, c.acrobat = some a → 0 ≤ a.autoSaveTime) ∧ (∀ p, c.common = some p → p = {}) ∧ (∀ p, c.output = some p → p = {}) ∧
  c.script = none ∧ c.trace = none ∧ c.properties = []

/-! ### Stylesheets -/

variable {F : Type}

/-- The parts of a style. -/
def styleParts : List Bytes := [b!"font", b!"border", b!"margin", b!"padding", b!"position", b!"size"]

/-- Positive numbers are read as they were written. -/
def SFloats.Exact (fl : SFloats F) : Prop := ∀ x, fl.pos x = true → fl.parse (fl.format x) = some x

/-- A number that is not positive is not written, so zero is read. -/
def floatBack (fl : SFloats F) (x : F) : F := if fl.pos x then x else fl.zero

/-- A part that comes back, when it is of the type of that part. -/
def partBack (fl : SFloats F) (k : Bytes) : SVal F → Option (SVal F)
  | .font f => if k = b!"font" then some (.font { f with size := floatBack fl f.size }) else none
  | .border b => if k = b!"border" then some (.border { b with width := floatBack fl b.width, radius := floatBack fl b.radius }) else none
  | .margin b => if k = b!"margin" then some (.margin ⟨floatBack fl b.top, floatBack fl b.right, floatBack fl b.bottom, floatBack fl b.left⟩) else none
  | .padding b => if k = b!"padding" then some (.padding ⟨floatBack fl b.top, floatBack fl b.right, floatBack fl b.bottom, floatBack fl b.left⟩) else none
  | .position p => if k = b!"position" then some (.position ⟨floatBack fl p.a, floatBack fl p.b⟩) else none
  | .size p => if k = b!"size" then some (.size ⟨floatBack fl p.a, floatBack fl p.b⟩) else none
  | _ => none

/-- Any other value comes back as what its text looks like. -/
def valueBack (fl : SFloats F) (v : SVal F) : Option (SVal F) :=
  let t := trimSpace (fl.print v)
  if t = [] then none
  else match fl.parse t with
    | some x => some (.float x)
    | none =>
      if t = b!"true" ∨ t = b!"1" then some (.bool true) else if t = b!"false" ∨ t = b!"0" then some (.bool false) else some (.str t)

/-- The property of that name that comes back. -/
def propBack (fl : SFloats F) (ps : List (Bytes × SVal F)) (k : Bytes) : Option (SVal F) :=
  (Map.get ps k).bind fun v => if k ∈ styleParts then partBack fl k v else valueBack fl v

/-- The style `b` is what comes back of the style `a`. -/
def StyleBack (fl : SFloats F) (b a : Style F) : Prop :=
  b.name = a.name ∧ b.type = a.type ∧ ∀ k, Map.get b.properties k = propBack fl a.properties k

/-- The names of the properties are different and none is that of an enclosing element. -/
def StyleNames (s : Style F) : Prop :=
  (s.properties.map (·.1)).Nodup ∧ ∀ p ∈ s.properties, p.1 ≠ b!"style" ∧ p.1 ≠ b!"stylesheet"

end Pdfer.Spec.XFASets
