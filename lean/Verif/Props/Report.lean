import Verif.Model.Report
import Verif.Proofs.GoLib

/-! C117: the text report of a comparison. -/

namespace Pdfer.Props

open Pdfer.Go Pdfer.Report

theorem infix_mid {a b c d : Bytes} (h : b <:+: c) : b <:+: a ++ c ++ d := by
  obtain ⟨x, y, rfl⟩ := h
  exact ⟨a ++ x, y ++ d, by simp⟩

theorem infix_left {b c d : Bytes} (h : b <:+: c) : b <:+: c ++ d := by simpa using infix_mid (a := []) (d := d) h

theorem infix_right {a b c : Bytes} (h : b <:+: c) : b <:+: a ++ c := by simpa using infix_mid (a := a) (d := []) h

theorem infix_flatten {α : Type} {l : List α} {f : α → Bytes} {x : α} (h : x ∈ l) : f x <:+: (l.map f).flatten := by
  induction l with
  | nil => cases h
  | cons y l ih =>
    simp only [List.map_cons, List.flatten_cons]
    rcases List.mem_cons.1 h with rfl | h
    · exact infix_left (List.infix_refl _)
    · exact infix_right (ih h)

/-- C117: the verdict at the head of the report is the verdict of the comparison, whatever the values of the two files are; nothing else is in
the report of identical files. -/
theorem C117_verdict (r : ResultRep) :
    (r.identical = true ↔ heading ++ same <+: report r) ∧ (r.identical = false ↔ heading ++ different <+: report r) ∧
    (r.identical = true → report r = heading ++ same) := by
  have hne : ∀ x, ¬ heading ++ same <+: heading ++ different ++ x := by
    rintro x ⟨y, h⟩
    rw [List.append_assoc, List.append_assoc] at h
    have h := List.append_cancel_left h
    simp [same, different] at h
  have hne2 : ¬ heading ++ different <+: heading ++ same := by
    rintro ⟨y, h⟩
    rw [List.append_assoc] at h
    have h := List.append_cancel_left h
    simp [same, different] at h
  cases hi : r.identical with
  | true =>
    have e : report r = heading ++ same := by simp [report, hi]
    rw [e]
    exact ⟨by simp, ⟨by simp, fun h => absurd h hne2⟩, fun _ => rfl⟩
  | false =>
    have e : report r = heading ++ different ++ (b!"Total Differences: " ++ itoa r.total ++ b!"\n\n" ++ metaText r.metas ++ structText r.struct ++ pagesText r.pages ++ formText r.form) := by
      simp [report, hi]
    rw [e]
    exact ⟨⟨by simp, fun h => absurd h (hne _)⟩, ⟨fun _ => List.prefix_append _ _, fun _ => rfl⟩, by simp⟩

/-- The line of a section that says how many elements there are; none is there when there are none. -/
def Counted (name : Bytes) (n : Nat) (text : Bytes) : Prop := 0 < n → b!"  " ++ name ++ b!": " ++ natDec n ++ b!" elements\n" <:+: text

theorem counted {name : Bytes} {n : Nat} {text : Bytes} (h : countLine name n <:+: text) : Counted name n text := by
  intro hn
  simpa only [countLine, if_pos hn] using h

/-- C117 (partial: what the report has lines for): every page with differences has its section, in which every kind of added or removed
element and modified text has a line with its number, and every other difference of the page a line; and every form field that was added,
removed or changed has a line with its name and values. -/
theorem C117_listed_partial (r : ResultRep) (hd : r.identical = false) :
    (∀ p ∈ r.pages, pageText p <:+: report r ∧ b!"\nPage " ++ itoa p.number ++ b!":\n" <+: pageText p ∧
      (∀ a x m, p.text = some (a, x, m) → Counted b!"Text Added" a (pageText p) ∧ Counted b!"Text Removed" x (pageText p) ∧ Counted b!"Text Modified" m (pageText p)) ∧
      (∀ a x, p.graphic = some (a, x) → Counted b!"Graphics Added" a (pageText p) ∧ Counted b!"Graphics Removed" x (pageText p)) ∧
      (∀ a x m v, p.image = some (a, x, m, v) → Counted b!"Images Added" a (pageText p) ∧ Counted b!"Images Removed" x (pageText p)) ∧
      (∀ a x, p.annotation = some (a, x) → Counted b!"Annotations Added" a (pageText p) ∧ Counted b!"Annotations Removed" x (pageText p)) ∧
      (∀ d ∈ p.diffs, b!"  " ++ d.1 ++ b!": " ++ d.2 ++ b!"\n" <:+: pageText p)) ∧
    (∀ f, r.form = some f →
      (∀ x ∈ f.added, b!"    - " ++ x.1 ++ b!": " ++ x.2 ++ b!"\n" <:+: report r) ∧
      (∀ x ∈ f.removed, b!"    - " ++ x.1 ++ b!": " ++ x.2 ++ b!"\n" <:+: report r) ∧
      (∀ x ∈ f.modified, b!"    - " ++ x.1 ++ b!": " ++ x.2.1 ++ b!" -> " ++ x.2.2 ++ b!"\n" <:+: report r)) := by
  have e : report r = heading ++ different ++ b!"Total Differences: " ++ itoa r.total ++ b!"\n\n" ++ metaText r.metas ++ structText r.struct ++ pagesText r.pages ++ formText r.form := by
    simp [report, hd]
  constructor
  · intro p hp
    refine ⟨?_, ?_, ?_, ?_, ?_, ?_, ?_⟩
    · rw [e]
      refine infix_left (infix_right ?_)
      unfold Report.pagesText
      rw [if_neg (List.ne_nil_of_mem hp)]
      exact infix_left (infix_right (infix_flatten hp))
    · unfold Report.pageText
      exact ((((List.prefix_append _ _).trans (List.prefix_append _ _)).trans (List.prefix_append _ _)).trans (List.prefix_append _ _)).trans (List.prefix_append _ _)
    · intro a x m h
      unfold Report.pageText
      rw [h]
      refine ⟨?_, ?_, ?_⟩ <;> refine counted (infix_left (infix_left (infix_left (infix_left (infix_right ?_)))))
      · exact infix_left (infix_left (List.infix_refl _))
      · exact infix_left (infix_right (List.infix_refl _))
      · exact infix_right (List.infix_refl _)
    · intro a x h
      unfold Report.pageText
      rw [h]
      refine ⟨?_, ?_⟩ <;> refine counted (infix_left (infix_left (infix_left (infix_right ?_))))
      · exact infix_left (List.infix_refl _)
      · exact infix_right (List.infix_refl _)
    · intro a x m v h
      unfold Report.pageText
      rw [h]
      refine ⟨?_, ?_⟩ <;> refine counted (infix_left (infix_left (infix_right ?_)))
      · exact infix_left (List.infix_refl _)
      · exact infix_right (List.infix_refl _)
    · intro a x h
      unfold Report.pageText
      rw [h]
      refine ⟨?_, ?_⟩ <;> refine counted (infix_left (infix_right ?_))
      · exact infix_left (List.infix_refl _)
      · exact infix_right (List.infix_refl _)
    · intro d hd
      unfold Report.pageText
      exact infix_right (infix_flatten (f := fun d : Bytes × Bytes => b!"  " ++ d.1 ++ b!": " ++ d.2 ++ b!"\n") hd)
  · intro f hf
    rw [e, hf]
    refine ⟨fun x hx => ?_, fun x hx => ?_, fun x hx => ?_⟩ <;> refine infix_right ?_ <;> unfold Report.formText <;> simp only
    · refine infix_left (infix_left (infix_left (infix_right ?_)))
      unfold fieldLines
      rw [if_neg (List.ne_nil_of_mem hx)]
      exact infix_right (infix_flatten (f := fun f : Bytes × Bytes => b!"    - " ++ f.1 ++ b!": " ++ f.2 ++ b!"\n") hx)
    · refine infix_left (infix_left (infix_right ?_))
      unfold fieldLines
      rw [if_neg (List.ne_nil_of_mem hx)]
      exact infix_right (infix_flatten (f := fun f : Bytes × Bytes => b!"    - " ++ f.1 ++ b!": " ++ f.2 ++ b!"\n") hx)
    · refine infix_left (infix_right ?_)
      rw [if_neg (List.ne_nil_of_mem hx)]
      exact infix_right (infix_flatten (f := fun f : Bytes × Change => b!"    - " ++ f.1 ++ b!": " ++ f.2.1 ++ b!" -> " ++ f.2.2 ++ b!"\n") hx)

/-- C117: eight of the eleven metadata fields, the object count and modified or moved images are never in the report: reports of results that
differ only in those are the same. -/
theorem C117_silent_violated (r : ResultRep) (m m' : MetaRep) (h1 : m.title = m'.title) (h2 : m.author = m'.author) (h3 : m.pageCount = m'.pageCount)
    (o o' pc : Option Change) (p : PageRep) (a x mo mv mo' mv' : Nat) :
    report { r with metas := some m } = report { r with metas := some m' } ∧
    report { r with struct := some (o, pc) } = report { r with struct := some (o', pc) } ∧
    report { r with pages := [{ p with image := some (a, x, mo, mv) }] } = report { r with pages := [{ p with image := some (a, x, mo', mv') }] } := by
  refine ⟨?_, rfl, rfl⟩
  simp [report, metaText, h1, h2, h3]

/-- A result with a changed title and a changed field. -/
example : report { identical := false, total := 2, metas := some { title := some (b!"a", b!"b") }, form := some { modified := [(b!"f", b!"1", b!"2")] } } =
    heading ++ different ++ b!"Total Differences: 2\n\nMetadata Differences:\n------------------------------\n  Title: a -> b\n\nForm Differences:\n------------------------------\n  Fields Modified: 1\n    - f: 1 -> 2\n\n" := by decide +kernel

end Pdfer.Props
