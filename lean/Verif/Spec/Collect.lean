import Verif.Model.Extract

/-! What `ExtractContent` should collect from the pages. -/

namespace Pdfer.Spec.Collect

/-- The first of the maps in which `name` occurs gives it the value `v`. -/
def FirstHas {V : Type} (ms : List (Go.Map Bytes V)) (name : Bytes) (v : V) : Prop :=
  ∃ before m after, ms = before ++ m :: after ∧ (name, v) ∈ m ∧ ∀ q ∈ before, ∀ u, (name, u) ∉ q

/-- `l` has one value for each name that occurs, the one of the first map that has it. -/
def OneOfEach {V : Type} (ms : List (Go.Map Bytes V)) (l : List V) : Prop :=
  ∃ pairs : List (Bytes × V), l = pairs.map (·.2) ∧ (pairs.map (·.1)).Nodup ∧ ∀ name v, (name, v) ∈ pairs ↔ FirstHas ms name v

/-- The images of a page. -/
def imagesOf {F : Type} (p : Extract.XPage F) : Go.Map Bytes Extract.Image := match p.resources with | some r => r.images | none => []

/-- The fonts of a page. -/
def fontsOf {F : Type} (p : Extract.XPage F) : Go.Map Bytes Extract.FontInfo := match p.resources with | some r => r.fonts | none => []

/-- Walking a map gives each of its entries once, in some order. -/
def Walks {V : Type} (f : Go.Map Bytes V → List (Bytes × V)) : Prop := ∀ m, (f m).Perm m

end Pdfer.Spec.Collect
