import Verif.Model.Builder

/-! What a built document should hold. -/

namespace Pdfer.Spec.Builder

open Pdfer.Go Pdfer.Writer Pdfer.Builder

/-- Calls on the underlying writer that do not store an object under a number chosen by the caller. -/
def Adds : BOp → Prop
  | .writer (.setObject _ _) => False
  | .writer (.setStream _ _ _ _) => False
  | _ => True

/-- The page builders given to FinalizePage, in order, as they were then. -/
def finalisedFrom (env : Builder.Env) : Builder.Builder → List BOp → List Page
  | _, [] => []
  | b, .finalize i :: ops => b.drafts[i]?.toList ++ finalisedFrom env (bstep env b (.finalize i)) ops
  | b, op :: ops => finalisedFrom env (bstep env b op) ops

/-- The same for a history on a new builder. -/
def finalised (env : Builder.Env) (ops : List BOp) : List Page := finalisedFrom env newBuilder ops

/-- The two lists have the same length and correspond place by place. -/
inductive InOrder {α β : Type} (R : α → β → Prop) : List α → List β → Prop
  | nil : InOrder R [] []
  | cons {a : α} {b : β} {as : List α} {bs : List β} : R a b → InOrder R as bs → InOrder R (a :: as) (b :: bs)

/-- Object `n` holds this text and is not a stream. -/
def HoldsText (w : Writer.Writer) (n : Int) (t : Bytes) : Prop := w.objects.get n = some { content := some t, stream := none, dict := none }

/-- `page` and `contents` are the numbers under which the page `p` is stored: its dictionary names the page tree `parent`, the size
and the resources of `p`, and the content stream, whose data is the compressed content of `p`; nothing drawn: no stream. -/
def StoredPage (env : Builder.Env) (w : Writer.Writer) (parent : Int) (page : Int) (p : Page) : Prop :=
  ∃ contents, page = contents + 1 ∧ HoldsText w page (pageText env.ord parent contents p) ∧
    ∃ o, w.objects.get contents = some o ∧ o.content = none ∧
      o.stream = if p.content = [] then none else some (env.wenv.z p.content)

/-- A resource name that cannot be taken for something else when a page is searched for keywords. -/
def PlainName (name : Bytes) : Prop :=
  (47 : UInt8) ∉ name ∧ ¬ b!"Type" <+: name ∧ ¬ b!"endobj" <:+: name ∧ ¬ b!"stream" <:+: name

/-- A page with plain resource names whose size is printed with digits. -/
def PlainPage (p : Page) : Prop :=
  (∀ c ∈ p.width ++ p.height, isDigit c = true) ∧ (∀ e ∈ p.fonts ++ p.images, PlainName e.1)

end Pdfer.Spec.Builder
