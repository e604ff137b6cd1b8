import Verif.Model.Builder
import Verif.Model.Forms

/-! Model of forms/acroform/integration.go:11-71: a form built together with a document of SimplePDFBuilder. -/

namespace Pdfer.FormBuilder

open Pdfer.Go Pdfer.Writer Pdfer.Builder Pdfer.Forms

/-- forms/acroform/integration.go:63-66 – the catalog with the form. -/
def formCatalog (pages form : Int) : Bytes := b!"<</Type/Catalog/Pages " ++ ref pages ++ b!"/AcroForm " ++ ref form ++ b!">>"

/-- forms/acroform/integration.go:52-71 – `BuildForm` with the fields added so far: the builder afterwards and the number of the form (`none`
= error, nothing changed). -/
def buildForm (fs : List FieldDef) (b : Builder) : Option (Builder × Int) :=
  (buildTexts fs b.w.nextObjNum).map fun texts =>
    let w := texts.foldl (fun w t => (addObject w (some t)).1) b.w
    let form := w.nextObjNum - 1
    let c := addObject w (some (formCatalog b.pagesNum form))
    ({ b with w := { c.1 with rootRef := ref c.2 } }, form)

/-- A call on the builder, its pages and its writer, or `BuildForm` of a form builder with these fields. -/
inductive FOp where
  | doc (op : BOp)
  | form (fs : List FieldDef)

/-- One call. -/
def fstep (env : Builder.Env) (b : Builder) : FOp → Builder
  | .doc op => bstep env b op
  | .form fs => match buildForm fs b with
    | some r => r.1
    | none => b

/-- A history of calls. -/
def frun (env : Builder.Env) (ops : List FOp) : Builder := ops.foldl (fstep env) newBuilder

end Pdfer.FormBuilder
