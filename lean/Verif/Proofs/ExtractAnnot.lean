import Verif.Proofs.ExtractDict
import Verif.Spec.Builder

/-! Annotations. -/

namespace Pdfer.Extract

open Pdfer.Go Pdfer.Manipulate Pdfer.Spec.Manipulate Pdfer.Spec.PageDict Pdfer.Strings
open Pdfer.Spec.Builder (InOrder)

variable {F : Type}

theorem replaceFrom_none {c : UInt8} {pat rep : Bytes} : ∀ (s : Bytes), c ∉ s → replaceFrom (c :: pat) rep 0 s = s
  | [], _ => rfl
  | d :: s, h => by
    rw [replaceFrom, if_neg, replaceFrom_none s fun hs => h (by simp [hs])]
    intro hp
    have := List.isPrefixOf_iff_prefix.1 hp
    obtain ⟨t, ht⟩ := this
    simp at ht
    exact h (by simp [ht.1])

theorem unescape_plain {s : Bytes} (h : (92 : UInt8) ∉ s) : unescapePDFString s = s := by
  have e : ∀ (d : UInt8) (rep : Bytes), replaceAll s [92, d] rep = s := fun d rep => replaceFrom_none s h
  unfold unescapePDFString
  simp only [e]

theorem kinds_type : ∀ e ∈ kinds, annotType e.1 = e.2 := by decide
theorem kinds_name : ∀ e ∈ kinds, ∃ name, e.1 = 47 :: name ∧ name ≠ [] ∧ ∀ c ∈ name, nameByte c = true := by
  have h : ∀ e ∈ kinds, e.1 = 47 :: e.1.drop 1 ∧ e.1.drop 1 ≠ [] ∧ ∀ c ∈ e.1.drop 1, nameByte c = true := by decide +kernel
  exact fun e he => ⟨_, h e he⟩

/-- An annotation whose subtype is known: an annotation of that kind with its rectangle and number; or the reading panics. -/
theorem annotation_known (fl : XFloats F) (get : Int → Option Bytes) (page num : Int) {t : Bytes} {e : Bytes × Bytes} (ht : get num = some t)
    (he : e ∈ kinds) (hs : NameIs t b!"/Subtype" e.1) {r : Option (Annot F)} (hr : annotation fl get page num = .ok r) :
    ∃ a, r = some a ∧ a.id = num ∧ a.type = e.2 ∧ a.page = page ∧ a.rect = rectOf (arrayValue fl t b!"/Rect") ∧
      (e.2 = b!"link" → linkUri get t = .ok a.uri) ∧
      a.color = (if 3 ≤ (arrayValue fl t b!"/C").length then (arrayValue fl t b!"/C").take 4 else []) ∧
      a.quad = (if (e.2 = b!"highlight" ∨ e.2 = b!"underline" ∨ e.2 = b!"strikeout" ∨ e.2 = b!"squiggly") ∧
        8 ≤ (arrayValue fl t b!"/QuadPoints").length then (arrayValue fl t b!"/QuadPoints").take 8 else []) ∧
      a.icon = (if e.2 = b!"text" then xDictValue t b!"/Name" else []) ∧
      a.dest = (if e.2 = b!"link" then xDictValue t b!"/Dest" else []) ∧
      a.isOpen = (decide (e.2 = b!"text") && decide (xDictValue t b!"/Open" = b!"true")) := by
  obtain ⟨name, hn, hn0, hnb⟩ := kinds_name e he
  rw [hn] at hs
  have hx : xDictValue t b!"/Subtype" = e.1 := by rw [hn]; exact xDict_name (k := b!"Subtype") (by decide) hn0 hnb hs
  unfold annotation at hr
  rw [ht] at hr
  simp only [hx] at hr
  rw [if_neg (by rw [hn]; simp), kinds_type e he] at hr
  cases hu : (if e.2 = b!"link" then linkUri get t else .ok []) with
  | err => rw [hu] at hr; simp [Res.bind] at hr
  | panic => rw [hu] at hr; simp [Res.bind] at hr
  | ok u =>
    rw [hu] at hr
    simp only [Res.bind, Res.ok.injEq] at hr
    subst hr
    refine ⟨_, rfl, rfl, rfl, rfl, rfl, ?_, rfl, rfl, rfl, rfl, rfl⟩
    intro hl
    rw [if_pos hl] at hu
    exact hu

/-- All annotations of an array, in order. -/
theorem annotLoop_known (fl : XFloats F) (get : Int → Option Bytes) (page : Int) (P : Annot F → Nat → Prop) :
    ∀ (nums : List Nat) (as : List (Annot F)), (∀ n ∈ nums, n ≤ 9223372036854775807 ∧
      ∀ r, annotation fl get page n = .ok r → ∃ a, r = some a ∧ P a n) →
      annotLoop fl get page (nums.map refText) = .ok as → InOrder P as nums
  | [], as, _, h => by
    simp [annotLoop] at h
    subst h
    exact .nil
  | n :: ns, as, hn, h => by
    rw [List.map_cons, annotLoop, parseObjectRef_refText n (hn n (by simp)).1] at h
    simp only at h
    cases ha : annotation fl get page n with
    | err => rw [ha] at h; simp [Res.bind] at h
    | panic => rw [ha] at h; simp [Res.bind] at h
    | ok r =>
      obtain ⟨a, rfl, hp⟩ := (hn n (by simp)).2 r ha
      rw [ha] at h
      simp only [Res.bind] at h
      cases hl : annotLoop fl get page (ns.map refText) with
      | err => rw [hl] at h; simp at h
      | panic => rw [hl] at h; simp at h
      | ok bs =>
        rw [hl] at h
        simp at h
        subst h
        exact .cons hp (annotLoop_known fl get page P ns bs (fun m hm => hn m (by simp [hm])) hl)

theorem annots_array (fl : XFloats F) (get : Int → Option Bytes) (page : Int) {s : Bytes} {nums : List Nat} (h0 : nums ≠ [])
    (h : RefsAre s b!"/Annots" nums) :
    (if xDictValue s b!"/Annots" = [] then Res.ok [] else annotations fl get page (xDictValue s b!"/Annots")) =
      annotLoop fl get page (nums.map refText) := by
  obtain ⟨b, hb, hp⟩ := xDict_refs (k := b!"Annots") (by decide) (by decide) (by decide) h0 h
  have hb : xDictValue s b!"/Annots" = 91 :: (b ++ [93]) := hb
  rw [hb, if_neg (by simp)]
  unfold annotations
  rw [hp, if_neg (by simpa using h0)]

theorem annots_spaced (fl : XFloats F) (get : Int → Option Bytes) (page : Int) {s w rest : Bytes} (hw0 : w ≠ []) (hw : ∀ c ∈ w, White c)
    (h : FirstKey s b!"/Annots" (w ++ b!"[" ++ rest)) :
    (if xDictValue s b!"/Annots" = [] then Res.ok [] else annotations fl get page (xDictValue s b!"/Annots")) = .ok [] := by
  obtain ⟨t, h1, h2⟩ := xDict_spaced (k := b!"Annots") (by decide) hw0 hw h
  have h1 : xDictValue s b!"/Annots" = 91 :: t := h1
  rw [h1, if_neg (by simp)]
  unfold annotations
  rw [h2, if_pos rfl, annotLoop, parse_bracket]
  rfl

theorem linkUri_absent {get : Int → Option Bytes} {t : Bytes} (h : ¬ b!"/URI" <:+: t) : linkUri get t = .ok [] := by
  simp only [linkUri, xDict_missing h]
  rfl

theorem annotation_no_panic (fl : XFloats F) (get : Int → Option Bytes) (page num : Int)
    (h : ∀ n t, get n = some t → ¬ b!"/URI" <:+: t) : ∃ r, annotation fl get page num = .ok r := by
  unfold annotation
  cases ht : get num with
  | none => exact ⟨none, rfl⟩
  | some t =>
    simp only
    split
    · exact ⟨none, rfl⟩
    · rw [linkUri_absent (h num t ht), ite_self]
      exact ⟨_, rfl⟩

theorem annotLoop_no_panic (fl : XFloats F) (get : Int → Option Bytes) (page : Int) (h : ∀ n t, get n = some t → ¬ b!"/URI" <:+: t) :
    ∀ rs : List Bytes, ∃ as, annotLoop fl get page rs = .ok as
  | [] => ⟨[], rfl⟩
  | r :: rs => by
    obtain ⟨as, ha⟩ := annotLoop_no_panic fl get page h rs
    rw [annotLoop]
    cases parseObjectRef r with
    | none => exact ⟨as, ha⟩
    | some n =>
      obtain ⟨a, h1⟩ := annotation_no_panic fl get page n h
      simp only [h1, ha, Res.bind]
      exact ⟨_, rfl⟩

theorem page_no_panic (fl : XFloats F) (get : Int → Option Bytes) (unz : Bytes → Option Bytes) (num : Int) (s : Bytes)
    (h : ∀ n t, get n = some t → ¬ b!"/URI" <:+: t) : ∃ x, page fl get unz num s = .ok x := by
  unfold page
  simp only
  split
  · exact ⟨_, rfl⟩
  · unfold annotations
    obtain ⟨as, ha⟩ := annotLoop_no_panic fl get num h (if parseObjectRefArray (xDictValue s b!"/Annots") = [] then [xDictValue s b!"/Annots"]
      else parseObjectRefArray (xDictValue s b!"/Annots"))
    rw [ha]
    exact ⟨_, rfl⟩

/-- The target of a link that stands behind the first /URI. -/
theorem linkUri_direct {get : Int → Option Bytes} {t w u rest : Bytes} (hw0 : w ≠ []) (hw : ∀ c ∈ w, White c)
    (hu : ∀ c ∈ u, tokByte c = true ∧ c ≠ 92) (hr : Ends rest) (h : FirstKey t b!"/URI" (w ++ b!"(" ++ u ++ b!")" ++ rest)) :
    linkUri get t = .ok u := by
  obtain ⟨pre, hpre, rfl⟩ := h
  have e : pre ++ b!"/URI" ++ (w ++ b!"(" ++ u ++ b!")" ++ rest) = pre ++ ((47 :: b!"URI") ++ (w ++ ((40 :: (u ++ [41])) ++ rest))) := by simp
  have hx : xDictValue (pre ++ ((47 :: b!"URI") ++ (w ++ ((40 :: (u ++ [41])) ++ rest)))) b!"/URI" = 40 :: (u ++ [41]) := by
    refine xDict_value (c := 47) (k := b!"URI") (by decide) (noOcc_iff_infix.2 hpre) hw0 hw ⟨by simp, ?_, by simp⟩ hr
    intro c hc
    simp only [List.mem_cons, List.mem_append, List.not_mem_nil, or_false] at hc
    rcases hc with rfl | hc | rfl
    · decide
    · exact (hu c hc).1
    · decide
  rw [e]
  simp only [linkUri, hx]
  rw [if_neg (by simp), if_pos (by simp [List.isPrefixOf])]
  unfold unquote
  rw [if_pos (by simp)]
  have : ((40 :: (u ++ [41])).take ((40 :: (u ++ [41])).length - 1)).drop 1 = u := by simp
  rw [this, unescape_plain fun hm => (hu 92 hm).2 rfl]

end Pdfer.Extract
