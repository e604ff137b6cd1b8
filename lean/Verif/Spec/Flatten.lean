import Verif.Spec.Manipulate

/-! Specification for flattening: what a reference to the form is, and what it means to take all of them out of a text. -/

namespace Pdfer.Spec.Flatten

open Pdfer.Go Pdfer.Spec.Manipulate

/-- A reference to the form: the key, two numbers and the letter R, with white space between them. -/
def FormRef (m : Bytes) : Prop :=
  ∃ w1 d1 w2 d2 w3, (w1 ≠ [] ∧ ∀ c ∈ w1, White c) ∧ (d1 ≠ [] ∧ ∀ c ∈ d1, isDigit c = true) ∧ (w2 ≠ [] ∧ ∀ c ∈ w2, White c) ∧
    (d2 ≠ [] ∧ ∀ c ∈ d2, isDigit c = true) ∧ (w3 ≠ [] ∧ ∀ c ∈ w3, White c) ∧ m = b!"/AcroForm" ++ w1 ++ d1 ++ w2 ++ d2 ++ w3 ++ b!"R"

/-- `Without s r`: going through `s` from left to right, every reference to the form is left out, and every other byte kept; that is `r`. -/
inductive Without : Bytes → Bytes → Prop
  | nil : Without [] []
  | keep (c : UInt8) {s r : Bytes} : (∀ m rest, c :: s = m ++ rest → ¬ FormRef m) → Without s r → Without (c :: s) (c :: r)
  | leave (m : Bytes) {s r : Bytes} : FormRef m → Without s r → Without (m ++ s) r

end Pdfer.Spec.Flatten
