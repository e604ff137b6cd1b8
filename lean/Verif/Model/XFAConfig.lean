import Verif.Model.XFALocale
import Verif.Model.FormXFA

/-! Model of forms/xfa/xfa_config_translator.go: reading and writing the XML of the configuration.

Simplifications as in Model/XFALocale and Model/XFAConnections.  A use of a nil pointer is a panic. -/

namespace Pdfer.XFASets

open Pdfer.Go Pdfer.XFA
open Pdfer.FormXFA (parseBool)

/-- types/xfa_data_types.go:42-50 – types.XFAConfigPDF. -/
structure CfgPDF where
  version : Bytes := []
  compression : Bytes := []
  linearized : Bool := false
  encryption : Bytes := []
  embedFonts : Bool := false
  tagged : Bool := false
  accessibility : Bool := false
deriving DecidableEq, Repr

/-- types/xfa_data_types.go:65-69 – types.XFAConfigInteractive. -/
structure CfgInteractive where
  currentPage : Int := 0
  zoom : Bytes := []
  viewMode : Bytes := []
deriving DecidableEq, Repr

/-- types/xfa_data_types.go – types.XFAConfigPrint, XFAConfigScript, XFAConfigDestination, XFAConfigCommon, XFAConfigOutput: two texts. -/
structure CfgPair where
  a : Bytes := []
  b : Bytes := []
deriving DecidableEq, Repr

/-- types/xfa_data_types.go:31-39 – types.XFAConfigPresent (`xdp` is the version of types.XFAConfigXDP). -/
structure CfgPresent where
  pdf : Option CfgPDF := none
  xdp : Option Bytes := none
  print : Option CfgPair := none
  interactive : Option CfgInteractive := none
  script : Option CfgPair := none
  renderPolicy : Bytes := []
  outputPolicy : Bytes := []
deriving DecidableEq, Repr

/-- types/xfa_data_types.go:72-76 – types.XFAConfigValidate. -/
structure CfgValidate where
  scriptTest : Bytes := []
  nullTest : Bytes := []
  formatTest : Bytes := []
deriving DecidableEq, Repr

/-- types/xfa_data_types.go:79-87 – types.XFAConfigSubmit. -/
structure CfgSubmit where
  format : Bytes := []
  target : Bytes := []
  method : Bytes := []
  embedPDF : Bool := false
  xdpContent : Bytes := []
  textEncoding : Bytes := []
  properties : List (Bytes × Bytes) := []
deriving DecidableEq, Repr

/-- types/xfa_data_types.go:96-101 – types.XFAConfigAcrobat. -/
structure CfgAcrobat where
  autoSave : Bool := false
  autoSaveTime : Int := 0
  formType : Bytes := []
  version : Bytes := []
deriving DecidableEq, Repr

/-- types/xfa_data_types.go:17-28 – types.XFAConfig (`trace` is types.XFAConfigTrace: enabled and level). -/
structure Config where
  present : Option CfgPresent := none
  validate : Option CfgValidate := none
  submit : Option CfgSubmit := none
  destination : Option CfgPair := none
  acrobat : Option CfgAcrobat := none
  common : Option CfgPair := none
  output : Option CfgPair := none
  script : Option CfgPair := none
  trace : Option (Bool × Bytes) := none
  properties : List (Bytes × Bytes) := []
deriving DecidableEq, Repr

/-! ### Reading -/

/-- forms/xfa/xfa_config_translator.go:161-170 – `parsePresentAttributes`. -/
def presentAttr (p : CfgPresent) (a : Bytes × Bytes) : CfgPresent :=
  if a.1 = b!"renderPolicy" then { p with renderPolicy := a.2 }
  else if a.1 = b!"effectiveOutputPolicy" then { p with outputPolicy := a.2 }
  else p

/-- forms/xfa/xfa_config_translator.go:172-194 – `parseSubmitAttributes`. -/
def submitAttr (s : CfgSubmit) (a : Bytes × Bytes) : CfgSubmit :=
  if a.1 = b!"format" then { s with format := a.2 }
  else if a.1 = b!"target" then { s with target := a.2 }
  else if a.1 = b!"method" then { s with method := a.2 }
  else if a.1 = b!"embedPDF" then { s with embedPDF := parseBool a.2 }
  else if a.1 = b!"xdpContent" then { s with xdpContent := a.2 }
  else if a.1 = b!"textEncoding" then { s with textEncoding := a.2 }
  else { s with properties := Map.set s.properties a.1 a.2 }

/-- forms/xfa/xfa_config_translator.go:196-205 – `parseDestinationAttributes`. -/
def destinationAttr (d : CfgPair) (a : Bytes × Bytes) : CfgPair :=
  if a.1 = b!"type" then { d with a := a.2 } else if a.1 = b!"target" then { d with b := a.2 } else d

/-- forms/xfa/xfa_config_translator.go:207-222 – `parseAcrobatAttributes`. -/
def acrobatAttr (c : CfgAcrobat) (a : Bytes × Bytes) : CfgAcrobat :=
  if a.1 = b!"autoSave" then { c with autoSave := parseBool a.2 }
  else if a.1 = b!"autoSaveTime" then { c with autoSaveTime := intOr c.autoSaveTime a.2 }
  else if a.1 = b!"formType" then { c with formType := a.2 }
  else if a.1 = b!"version" then { c with version := a.2 }
  else c

/-- forms/xfa/xfa_config_translator.go:224-243 – `parsePDFAttributes`. -/
def pdfAttr (p : CfgPDF) (a : Bytes × Bytes) : CfgPDF :=
  if a.1 = b!"version" then { p with version := a.2 }
  else if a.1 = b!"compression" then { p with compression := a.2 }
  else if a.1 = b!"linearized" then { p with linearized := parseBool a.2 }
  else if a.1 = b!"encryption" then { p with encryption := a.2 }
  else if a.1 = b!"embedFonts" then { p with embedFonts := parseBool a.2 }
  else if a.1 = b!"tagged" then { p with tagged := parseBool a.2 }
  else if a.1 = b!"accessibility" then { p with accessibility := parseBool a.2 }
  else p

/-- forms/xfa/xfa_config_translator.go:245-258 – `parseInteractiveAttributes`. -/
def interactiveAttr (i : CfgInteractive) (a : Bytes × Bytes) : CfgInteractive :=
  if a.1 = b!"currentPage" then { i with currentPage := intOr i.currentPage a.2 }
  else if a.1 = b!"zoom" then { i with zoom := a.2 }
  else if a.1 = b!"viewMode" then { i with viewMode := a.2 }
  else i

/-- forms/xfa/xfa_config_translator.go:20-28 – the result and the local variables of the loop. -/
structure GSt where
  cfg : Config := {}
  sect : Bytes := []
  value : Bytes := []
deriving DecidableEq, Repr

/-- forms/xfa/xfa_config_translator.go:101-127 – an element that only counts inside the present section. -/
def inPresent (st : GSt) (k : CfgPresent → CfgPresent) : GSt :=
  match st.cfg.present with
  | some p => if st.sect = b!"present" then { st with cfg := { st.cfg with present := some (k p) } } else st
  | none => st

/-- forms/xfa/xfa_config_translator.go:43-129 – a start element. -/
def gStart (st : GSt) (n : Bytes) (as : List (Bytes × Bytes)) : Res GSt :=
  if n = b!"config" then .ok st
  else if n = b!"present" then
    .ok { st with sect := n, cfg := { st.cfg with present := some (as.foldl presentAttr (st.cfg.present.getD {})) } }
  else if n = b!"validate" then .ok { st with sect := n, cfg := { st.cfg with validate := some (st.cfg.validate.getD {}) } }
  else if n = b!"submit" then .ok { st with sect := n, cfg := { st.cfg with submit := some (as.foldl submitAttr (st.cfg.submit.getD {})) } }
  else if n = b!"destination" then
    .ok { st with sect := n, cfg := { st.cfg with destination := some (as.foldl destinationAttr (st.cfg.destination.getD {})) } }
  else if n = b!"acrobat" then .ok { st with sect := n, cfg := { st.cfg with acrobat := some (as.foldl acrobatAttr (st.cfg.acrobat.getD {})) } }
  else if n = b!"common" then .ok { st with sect := n, cfg := { st.cfg with common := some (st.cfg.common.getD {}) } }
  else if n = b!"output" then .ok { st with sect := n, cfg := { st.cfg with output := some (st.cfg.output.getD {}) } }
  else if n = b!"script" then
    (if st.sect = b!"present" then
      (match st.cfg.present with
        | some p => .ok { st with cfg := { st.cfg with present := some { p with script := some (p.script.getD {}) } } }
        | none => .panic)
    else .ok { st with cfg := { st.cfg with script := some (st.cfg.script.getD {}) } })
  else if n = b!"pdf" then .ok (inPresent st fun p => { p with pdf := some (as.foldl pdfAttr (p.pdf.getD {})) })
  else if n = b!"xdp" then .ok (inPresent st fun p => { p with xdp := some (p.xdp.getD []) })
  else if n = b!"print" then .ok (inPresent st fun p => { p with print := some (p.print.getD {}) })
  else if n = b!"interactive" then .ok (inPresent st fun p => { p with interactive := some (as.foldl interactiveAttr (p.interactive.getD {})) })
  else .ok { st with value := [] }

/-- forms/xfa/xfa_config_translator.go:134 – the sections. -/
def isSection (n : Bytes) : Bool :=
  [b!"present", b!"validate", b!"submit", b!"destination", b!"acrobat", b!"common", b!"output"].contains n

/-- forms/xfa/xfa_config_translator.go:131-147 – an end element. -/
def gEnd (st : GSt) (n : Bytes) : GSt :=
  if isSection n then { st with sect := [] }
  else
    let v := trimSpace st.value
    { st with
      value := []
      cfg := if v ≠ [] ∧ st.sect ≠ [] then { st.cfg with properties := Map.set st.cfg.properties n v } else st.cfg }

/-- forms/xfa/xfa_config_translator.go:30-152 – one token. -/
def gStep (st : GSt) : Tok → Res GSt
  | .start n as => gStart st n as
  | .close n => .ok (gEnd st n)
  | .chars t => .ok { st with value := st.value ++ t }

/-- forms/xfa/xfa_config_translator.go:30-153 – the loop. -/
def gRun : List Tok → GSt → Res GSt
  | [], st => .ok st
  | t :: ts, st => (gStep st t).bind (gRun ts)

/-- forms/xfa/xfa_config_translator.go:15-159 – `ParseXFAConfig` on the tokens the decoder delivers before it ends or fails. -/
def parseConfig (toks : List Tok) : Res Config := (gRun toks {}).bind fun st => .ok st.cfg

/-! ### Writing -/

/-- forms/xfa/xfa_config_translator.go:392-426 – `encodeConfigPDF`. -/
def encPDF (p : CfgPDF) : List Tok :=
  bare b!"pdf" (strAttr b!"version" p.version ++ strAttr b!"compression" p.compression ++ boolAttr b!"linearized" p.linearized ++
    strAttr b!"encryption" p.encryption ++ boolAttr b!"embedFonts" p.embedFonts ++ boolAttr b!"tagged" p.tagged ++
    boolAttr b!"accessibility" p.accessibility)

/-- forms/xfa/xfa_config_translator.go:428-450 – `encodeConfigInteractive`. -/
def encInteractive (i : CfgInteractive) : List Tok :=
  bare b!"interactive" (intAttr b!"currentPage" i.currentPage ++ strAttr b!"zoom" i.zoom ++ strAttr b!"viewMode" i.viewMode)

/-- forms/xfa/xfa_config_translator.go:358-390 – `encodeConfigPresent`. -/
def encPresent (p : CfgPresent) : List Tok :=
  [.start b!"present" (strAttr b!"renderPolicy" p.renderPolicy ++ strAttr b!"effectiveOutputPolicy" p.outputPolicy)] ++
  part encPDF p.pdf ++ part encInteractive p.interactive ++ [.close b!"present"]

/-- forms/xfa/xfa_config_translator.go:452-474 – `encodeConfigValidate`. -/
def encValidate (v : CfgValidate) : List Tok :=
  bare b!"validate" (strAttr b!"scriptTest" v.scriptTest ++ strAttr b!"nullTest" v.nullTest ++ strAttr b!"formatTest" v.formatTest)

/-- forms/xfa/xfa_config_translator.go:476-507 – `encodeConfigSubmit`. -/
def encSubmit (s : CfgSubmit) : List Tok :=
  bare b!"submit" (strAttr b!"format" s.format ++ strAttr b!"target" s.target ++ strAttr b!"method" s.method ++
    boolAttr b!"embedPDF" s.embedPDF ++ strAttr b!"xdpContent" s.xdpContent ++ strAttr b!"textEncoding" s.textEncoding)

/-- forms/xfa/xfa_config_translator.go:530-555 – `encodeConfigAcrobat`. -/
def encAcrobat (c : CfgAcrobat) : List Tok :=
  bare b!"acrobat" (boolAttr b!"autoSave" c.autoSave ++ intAttr b!"autoSaveTime" c.autoSaveTime ++ strAttr b!"formType" c.formType ++
    strAttr b!"version" c.version)

/-- forms/xfa/xfa_config_translator.go:509-528, 557-597 – `encodeConfigDestination`, `encodeConfigCommon`, `encodeConfigOutput`. -/
def encPair (n ka kb : Bytes) (p : CfgPair) : List Tok := bare n (strAttr ka p.a ++ strAttr kb p.b)

/-- forms/xfa/xfa_config_translator.go:261-356 – `ConfigToXFA`: the tokens given to the encoder; `none`: it refuses an element without a name. -/
def configToXFA (c : Config) : Option (List Tok) :=
  if [] ∈ c.properties.map (·.1) then none
  else some ([.start b!"config" []] ++ part encPresent c.present ++ part encValidate c.validate ++ part encSubmit c.submit ++
    part (encPair b!"destination" b!"type" b!"target") c.destination ++ part encAcrobat c.acrobat ++
    part (encPair b!"common" b!"dataPrefix" b!"timeStamp") c.common ++ part (encPair b!"output" b!"format" b!"destination") c.output ++
    c.properties.flatMap (fun p => [.start p.1 [], .chars p.2, .close p.1]) ++ [.close b!"config"])

end Pdfer.XFASets
