/-! Byte strings and models of the Go standard library functions used by pdfer. -/

namespace Pdfer

/-- Go `[]byte` / `string`. -/
abbrev Bytes := List UInt8

open Lean in
/-- `b!"obj"` is the byte list of an ASCII string literal. -/
macro:max "b!" s:str : term => do
  let bs := s.getString.toUTF8.toList
  let elems : Array (TSyntax `term) :=
    (bs.map (fun b => (Syntax.mkNumLit (toString b.toNat)))).toArray
  `(([$elems,*] : List UInt8))

/-- A statement about all bytes is a statement about all numbers below 256. -/
theorem forall_byte {p : UInt8 → Prop} (h : ∀ n : Fin 256, p (UInt8.ofNat n.val)) (b : UInt8) : p b := by
  have h1 := h ⟨b.toNat, b.toNat_lt⟩
  simpa using h1

/-- Induction on lists built by appending at the end. -/
theorem snoc_induction {α : Type} {P : List α → Prop} (nil : P []) (snoc : ∀ l a, P l → P (l ++ [a]))
    (l : List α) : P l := by
  suffices h : ∀ r : List α, P r.reverse by simpa using h l.reverse
  intro r
  induction r with
  | nil => simpa using nil
  | cons a r ih => simpa using snoc _ a ih

end Pdfer
