import Verif.Model.Compare

/-! Specification of comparison: common subsequences, accounts of two texts, words, unchanged elements. -/

namespace Pdfer.Compare

/-- A common subsequence of two lists, as a list of pairs of positions: positions strictly increase on both sides and
paired elements are equal. -/
structure IsCommonSubsequence {α : Type} (eq : α → α → Bool) (t1 t2 : List α) (ms : List (Nat × Nat)) : Prop where
  increasing : ms.Pairwise fun p q => p.1 < q.1 ∧ p.2 < q.2
  paired : ∀ p ∈ ms, ∃ a b, t1[p.1]? = some a ∧ t2[p.2]? = some b ∧ eq a b = true

/-- A diff accounts for both lists: each element of the first is kept, modified or removed, each element of the second
kept, modified or added, exactly once (lists equal up to order, with multiplicity); kept pairs satisfy `keep` and
modified pairs satisfy `change`. -/
def Accounts {α : Type} (keep change : α → α → Prop) (t1 t2 removed added : List α) (modified : List (α × α)) : Prop :=
  ∃ kept : List (α × α), (∀ p ∈ kept, keep p.1 p.2) ∧ (∀ p ∈ modified, change p.1 p.2) ∧
    t1.Perm (kept.map (·.1) ++ modified.map (·.1) ++ removed) ∧
    t2.Perm (kept.map (·.2) ++ modified.map (·.2) ++ added)

/-- Two positions closer than `tol` in both coordinates. -/
def Near (tol : Rat) (a b : Elem) : Prop := -tol < a.x - b.x ∧ a.x - b.x < tol ∧ -tol < a.y - b.y ∧ a.y - b.y < tol

/-- Same font, sizes closer than a tenth. -/
def SameFont (a b : Elem) : Prop := a.font = b.font ∧ -(1 / 10) < a.size - b.size ∧ a.size - b.size < 1 / 10

/-- How the options make one look at a text: without white space, without case. -/
def view (o : Opts) (t : Bytes) : Bytes :=
  (t.filter fun c => !(o.ignoreWhitespace && (c = 32 || c = 9 || c = 10 || c = 13))).map fun c =>
    if o.ignoreCase && (65 ≤ c.toNat && c.toNat ≤ 90) then UInt8.ofNat (c.toNat + 32) else c

/-- An element the comparison may leave unreported, under the given options. -/
def Unchanged (o : Opts) (a b : Elem) : Prop :=
  (Near o.textTol a b ∧ view o a.text = view o b.text ∧ SameFont a b) ∨
  (o.gran = .word ∧ Near o.textTol a b ∧ splitWords (view o a.text) = splitWords (view o b.text)) ∨
  (o.gran = .char ∧ Near o.textTol a b ∧ view o a.text = view o b.text) ∨
  (o.sens = .relaxed ∧ changeRatio (view o a.text) (view o b.text) ≤ 1 / 10)

/-- What a comparison may report as modified: another text at the same place, or the same text at another place. -/
def Changed (o : Opts) (a b : Elem) : Prop :=
  (Near o.textTol a b ∧ a.text ≠ b.text) ∨ (¬ Near o.textTol a b ∧ view o a.text = view o b.text ∧ SameFont a b)

end Pdfer.Compare
