import Verif.Proofs.OpenWritten
import Verif.Props.Document
import Verif.Proofs.KeyText

/-! The stand-alone reader (core/parse/get_object.go) on what a writer writes. -/

namespace Pdfer.Incremental

open Pdfer.Go Pdfer.Writer Pdfer.Spec Pdfer.XRefTable

/-- The text from the table on holds no letter `j`. -/
theorem tail_no_j (w : Writer) (hrefs : RefOrNil w.rootRef ∧ RefOrNil w.infoRef ∧ RefOrNil w.encryptRef) (ps : Map Int Nat) (pos : Nat) :
    (106 : UInt8) ∉ tail w ps pos := by
  have h1 := trailerHead_not_mem w hrefs (c := 106) (by decide) (by decide) (by decide)
  have hx : (106 : UInt8) ∉ hexUpper w.fileID := by
    unfold hexUpper
    intro h
    obtain ⟨b, _, hb⟩ := List.mem_flatMap.1 h
    have key : ∀ n, n < 16 → (106 : UInt8) ≠ hexUp n := by decide
    simp only [List.mem_cons, List.not_mem_nil, or_false] at hb
    have hlt := b.toNat_lt
    rcases hb with hb | hb
    · exact key _ (by omega) hb
    · exact key _ (by omega) hb
  have h2 : (106 : UInt8) ∉ trailerId w := by
    unfold trailerId
    refine ite_not_mem fun _ => ?_
    simp only [List.mem_append, not_or]
    exact ⟨⟨⟨⟨by decide, hx⟩, by decide⟩, hx⟩, by decide⟩
  have hp : ∀ k n, (106 : UInt8) ∉ padDec k n := by
    intro k n hm
    exact absurd (padDec_digits k n _ hm) (by decide)
  have h3 : (106 : UInt8) ∉ xrefTable w.nextObjNum ps := by
    unfold xrefTable
    simp only [List.mem_append, not_or, List.mem_flatten, List.mem_map, not_exists]
    refine ⟨⟨⟨⟨⟨by decide, by decide⟩, not_mem_itoa _ (by decide) (by decide)⟩, by decide⟩, ⟨⟨hp _ _, by decide⟩, hp _ _⟩, by decide⟩, ?_⟩
    rintro l ⟨⟨k, _, rfl⟩, hm⟩
    revert hm
    unfold tableLine
    split <;> simp [hp]
  unfold tail
  rw [trailer_eq]
  unfold startxref
  simp only [List.mem_append, not_or]
  exact ⟨⟨h3, by decide, ⟨by decide, h1, h2⟩, by decide⟩, ⟨by decide, not_mem_natDec (by decide) _⟩, by decide⟩

/-- The first `startxref` of the file is the last. -/
theorem first_startxref (pre : Bytes) (w : Writer) (ps : Map Int Nat) (pos : Nat)
    (hone : ∀ i j, OccursAt b!"startxref" (pre ++ tail w ps pos) i → OccursAt b!"startxref" (pre ++ tail w ps pos) j → i = j) :
    searchWith (reKeyNum b!"startxref") (pre ++ tail w ps pos) = some (natDec pos) := by
  have e : pre ++ tail w ps pos = (pre ++ xrefTable w.nextObjNum ps ++ trailer w) ++ (b!"startxref" ++ (10 :: (natDec pos ++ b!"\n%%EOF\n"))) := by
    simp [tail, startxref]
  rw [e] at hone ⊢
  generalize pre ++ xrefTable w.nextObjNum ps ++ trailer w = a at *
  have hno : NoOcc b!"startxref" a := by
    intro j hj
    have hlt : j + 9 ≤ a.length := by
      have := hj.length_le
      simp only [List.length_drop] at this
      have h9 : (b!"startxref").length = 9 := by decide
      omega
    have h1 : OccursAt b!"startxref" (a ++ (b!"startxref" ++ (10 :: (natDec pos ++ b!"\n%%EOF\n")))) j := by
      rw [occursAt_iff (by decide)]
      exact prefix_drop_append _ hj
    have h2 : OccursAt b!"startxref" (a ++ (b!"startxref" ++ (10 :: (natDec pos ++ b!"\n%%EOF\n")))) a.length := by
      rw [occursAt_iff (by decide), List.drop_left]
      exact List.prefix_append _ _
    have := hone _ _ h1 h2
    omega
  have := Manipulate.searchWith_first (c := 115) (k := b!"tartxref") (pre := a) (t := b!"startxref" ++ (10 :: (natDec pos ++ b!"\n%%EOF\n")))
    (Incremental.reKeyNum_prefix b!"startxref") (by intro d hd; simp at hd; subst hd; decide) hno
  rw [this]
  exact searchWith_here (reKeyNum_nl _ _ _ (by intro c hc; simp at hc; subst hc; decide))

/-- The stand-alone reader on the file of a writer. -/
theorem standalone_writer (unz : Bytes → Option Bytes) (wenv : Writer.Env) (w : Writer) (hinv : Inv w)
    (hrefs : RefOrNil w.rootRef ∧ RefOrNil w.infoRef ∧ RefOrNil w.encryptRef) (hok : RefsOK w) (hfit : FileFits wenv w)
    (hone : ∀ i j, OccursAt b!"startxref" (write wenv w).1 i → OccursAt b!"startxref" (write wenv w).1 j → i = j)
    (hwin : (xrefTable w.nextObjNum (tableBody wenv w).2.1).length + (trailer w).length + 36 ≤ 10000)
    (n : Int) (o : Obj) (h1 : 1 ≤ n) (ho : w.objects.get n = some o) :
    ∃ c, BodyOf wenv n o c ∧
      (wenv.crypt = none → ∀ s, o.stream = some s →
        c = formatDictionary (w.heap.getD (o.dict.getD 0) []) ++ b!"\nstream\n" ++ s ++ b!"\nendstream") ∧
      (Delimitable c → Document.getObject unz none (write wenv w).1 n = .ok (itoa n ++ b!" 0 obj\n" ++ c ++ b!"\nendobj")) := by
  obtain ⟨base, hl, hb1, hb2⟩ := loc_base_w wenv hfit.fair w hinv hfit.table hfit.plain hfit.size hfit.next
  have hp := tableBody_keys wenv hfit.fair w
  have hout : (write wenv w).1 = (header w.pdfVersion ++ (tableBody wenv w).1) ++
      tail w (tableBody wenv w).2.1 (header w.pdfVersion ++ (tableBody wenv w).1).length := by
    rw [write_table wenv w hfit.table hfit.plain]
    simp [tail, List.append_assoc]
  have hsize := hfit.size
  have hmax : ∀ e ∈ (tableBody wenv w).2.1, e.2 ≤ 9223372036854775807 := by
    rintro ⟨n, p⟩ he
    obtain ⟨_, _, k, _, _, hk, _, hkl⟩ := writeObjs_at wenv (fun _ => false) _ w.heap (sortedObjs wenv w)
      (fun _ => True) True.intro (fun _ _ _ _ _ => True.intro) n p he
    rw [hout] at hsize
    simp only [List.length_append] at hsize
    unfold tableBody at hsize
    simp only
    omega
  have hread : ∀ n : Int, (baseSection wenv w).objects.get n =
      if 1 ≤ n ∧ n < w.nextObjNum then ((tableBody wenv w).2.1.get n).map Int.ofNat else none :=
    fun n => tableLines_read w.nextObjNum hinv.next_pos hfit.next _ hmax st0 rfl n
  have hpre : (header w.pdfVersion ++ (tableBody wenv w).1).length ≤ 9223372036854775807 := by
    rw [hout, List.length_append] at hsize; omega
  have htl : (tail w (tableBody wenv w).2.1 (header w.pdfVersion ++ (tableBody wenv w).1).length).length ≤ window := by
    unfold tail startxref
    have := natDec_length_int64 _ hpre
    simp only [List.length_append, window] at this ⊢
    have e1 : (b!"startxref\n").length = 10 := by decide
    have e2 : (b!"\n%%EOF\n").length = 7 := by decide
    omega
  obtain ⟨m, hm1, hm2⟩ := parseTable_tail (header w.pdfVersion ++ (tableBody wenv w).1) w hok (tableBody wenv w).2.1
    (header w.pdfVersion ++ (tableBody wenv w).1).length hinv.next_pos hfit.next hmax htl
  have hs : (base n).isSome := (hb1 n).2 ⟨h1, by rw [ho]; rfl⟩
  obtain ⟨c, hc⟩ := Option.isSome_iff_exists.1 hs
  obtain ⟨_, o', ho', hbody, _, hdict⟩ := hb2 n c hc
  rw [ho] at ho'
  simp at ho'
  subst ho'
  refine ⟨c, hbody, hdict, fun hd => ?_⟩
  have hlt := hinv.lt_next n ((Map.get_isSome_iff _ _).1 (by rw [ho]; rfl))
  have hnx := hfit.next
  rcases hl n with ⟨_, h2⟩ | ⟨p, c', h2, h3, h4⟩
  · rw [hc] at h2; simp at h2
  · rw [hc] at h3
    simp at h3
    subst h3
    simp only [List.reverse_singleton, List.findSome?_cons, List.findSome?_nil] at h2
    have hgm : m.get n = some (p : Int) := by
      rw [hm2, ← hread]
      cases hg : (baseSection wenv w).objects.get n with
      | none => rw [hg] at h2; simp at h2
      | some x => rw [hg] at h2; exact h2
    have hfound : Document.findObjectLocation unz (write wenv w).1 n = .ok (.direct p) := by
      unfold Document.findObjectLocation
      rw [hout] at hone
      rw [hout, first_startxref _ w _ _ hone]
      have hpos : 0 < (header w.pdfVersion ++ (tableBody wenv w).1).length := by simp [header]
      have htp : 0 < (tail w (tableBody wenv w).2.1 (header w.pdfVersion ++ (tableBody wenv w).1).length).length := by simp only [tail, startxref, List.length_append, List.length_cons, List.length_nil]; omega
      generalize (header w.pdfVersion ++ (tableBody wenv w).1) = pre at *
      simp only [Res.ofOption, Res.bind, atoiMag_natDec _ hpre]
      rw [if_neg (by rw [List.length_append]; omega), List.drop_left]
      rw [if_neg (by
        rw [Bool.not_eq_true, ← Bool.not_eq_true, Manipulate.contains_iff]
        rintro ⟨a, b, hab⟩
        have : (106 : UInt8) ∈ (tail w (tableBody wenv w).2.1 pre.length).take 100 := by rw [← hab]; simp
        exact tail_no_j w hrefs _ _ (List.mem_of_mem_take this))]
      rw [if_pos (by simp [tail, xrefTable]), hm1]
      simp [hgm]
    unfold Document.getObject
    rw [hfound]
    simp only [Res.bind]
    exact getDirect_at _ n (Props.itoa_len n (by omega) (by omega)) c (Props.delimited_of hd) p h4

end Pdfer.Incremental
