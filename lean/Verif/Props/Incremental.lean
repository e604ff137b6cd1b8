import Verif.Props.Writer
import Verif.Proofs.UpdateBase

/-! Properties C23–C26 and C56: revisions, incremental updates, the /Prev chain, and reading back what the
writer wrote. -/

namespace Pdfer.Props

open Pdfer.Go Pdfer.Incremental Pdfer.Spec

/-! ### C23 -/

/-- C23: the markers counted are exactly the occurrences of `%%EOF`, each once. -/
theorem C23_markers_are_occurrences (s : Bytes) :
    (∀ i, i ∈ findAllEOF s ↔ OccursAt b!"%%EOF" s i) ∧ (findAllEOF s).Pairwise (· < ·) ∧
    countRevisions s = (findAllEOF s).length ∧ boundaries s = (findAllEOF s).map (· + 5) :=
  ⟨fun i => by rw [mem_findAllEOF, occursAt_iff (by decide)], findAllEOF_sorted s, rfl, rfl⟩

/-- C23: revision `k` (1-based) exists exactly for `1 ≤ k ≤ CountRevisions`. -/
theorem C23_range (s : Bytes) (k : Int) : (extractRevision s k).isSome ↔ 1 ≤ k ∧ k ≤ countRevisions s := by
  unfold extractRevision countRevisions
  have hb : (boundaries s).length = (findAllEOF s).length := by simp [boundaries]
  rw [hb]
  split
  · simp; omega
  · simp; omega

theorem extract_form (s : Bytes) (k : Int) (r : Bytes) (h : extractRevision s k = some r) :
    ∃ (i : Nat) (hi : i < (findAllEOF s).length), k = (i + 1 : Nat) ∧ r = s.take (revEnd s (findAllEOF s)[i]) := by
  obtain ⟨h1, h2⟩ := (C23_range s k).1 (by rw [h]; rfl)
  unfold countRevisions at h2
  refine ⟨(k - 1).toNat, by omega, by omega, ?_⟩
  have hk : k = (((k - 1).toNat + 1 : Nat) : Int) := by omega
  rw [hk, extract_eq s (k - 1).toNat (by omega)] at h
  simpa using h.symm

/-- C23: a revision is a prefix of the file made of the bytes up to and including the `k`-th marker and then
all the end-of-line bytes that directly follow it. -/
theorem C23_revision_is_prefix (s : Bytes) (k : Int) (r : Bytes) (h : extractRevision s k = some r) :
    ∃ a eol rest, r = a ++ b!"%%EOF" ++ eol ∧ s = r ++ rest ∧ (∀ c ∈ eol, c = 13 ∨ c = 10) ∧
      (∀ c, rest.head? = some c → c ≠ 13 ∧ c ≠ 10) ∧ (findAllEOF s)[k.toNat - 1]? = some a.length := by
  obtain ⟨i, hi, rfl, rfl⟩ := extract_form s k r h
  have hocc := (mem_findAllEOF s _).1 (List.getElem_mem hi)
  generalize hm : (findAllEOF s)[i] = m at *
  obtain ⟨t, ht⟩ := hocc
  have hlen : m ≤ s.length := by
    apply Classical.byContradiction; intro hn
    rw [List.drop_of_length_le (by omega)] at ht
    simp at ht
  have hs : s = s.take m ++ b!"%%EOF" ++ t := by
    rw [List.append_assoc, ht, List.take_append_drop]
  have hl : (s.take m).length = m := by simp [hlen]
  generalize s.take m = a at hs hl
  subst hl
  subst hs
  have hd : (a ++ b!"%%EOF" ++ t).drop (a.length + 5) = t := by
    rw [List.drop_append_of_le_length (by simp)]
    simp
  have hsplit := List.takeWhile_append_dropWhile (p := isEol) (l := t)
  refine ⟨a, t.takeWhile isEol, t.dropWhile isEol, ?_, ?_, ?_, ?_, ?_⟩
  · unfold revEnd
    rw [hd]
    conv => lhs; rw [← hsplit]
    rw [← List.append_assoc]
    apply List.take_left'
    simp; omega
  · unfold revEnd
    rw [hd]
    have : (a ++ b!"%%EOF" ++ t).take (a.length + 5 + (t.takeWhile isEol).length) = a ++ b!"%%EOF" ++ t.takeWhile isEol := by
      conv => lhs; rw [← hsplit]
      rw [← List.append_assoc]
      apply List.take_left'
      simp; omega
    rw [this, List.append_assoc (a ++ _), hsplit]
  · intro c hc
    have := List.all_eq_true.1 (List.all_takeWhile (p := isEol) (l := t)) c hc
    unfold isEol at this
    simpa using this
  · intro c hc
    have := List.head?_dropWhile_not isEol t
    rw [hc] at this
    unfold isEol at this
    simpa using this
  · rw [show ((i + 1 : Nat) : Int).toNat - 1 = i by omega, List.getElem?_eq_getElem hi, hm]

/-- C23: revision `k` has exactly `k` revisions, and extracting an earlier revision from it gives the same bytes
as extracting it from the file. -/
theorem C23_revision_of_revision (s : Bytes) (k : Int) (r : Bytes) (h : extractRevision s k = some r) :
    (countRevisions r : Int) = k ∧ ∀ j, j ≤ k → extractRevision r j = extractRevision s j := by
  obtain ⟨i, hi, rfl, rfl⟩ := extract_form s k r h
  have hc : countRevisions (s.take (revEnd s (findAllEOF s)[i])) = i + 1 := by
    unfold countRevisions
    rw [findAllEOF_take s i hi, List.length_take]
    omega
  refine ⟨by rw [hc], ?_⟩
  intro j hj
  by_cases h1 : 1 ≤ j
  · have hjj : j = (((j - 1).toNat + 1 : Nat) : Int) := by omega
    rw [hjj]
    exact extract_of_extract s _ i (by omega) hi
  · have e1 : ∀ t, extractRevision t j = none := by
      intro t
      have := C23_range t j
      cases hx : extractRevision t j with
      | none => rfl
      | some x => rw [hx] at this; exact absurd (this.1 rfl).1 h1
    rw [e1, e1]

/-- C23: revisions are nested and grow strictly. -/
theorem C23_revisions_grow (s : Bytes) (j k : Int) (rj rk : Bytes) (hj : extractRevision s j = some rj)
    (hk : extractRevision s k = some rk) (hjk : j < k) : rj <+: rk ∧ rj.length < rk.length := by
  obtain ⟨hc, hsub⟩ := C23_revision_of_revision s k rk hk
  have h1 := hsub j (by omega)
  rw [hj] at h1
  obtain ⟨a, eol, rest, _, h2, _⟩ := C23_revision_is_prefix rk j rj h1
  have hp : rj <+: rk := ⟨rest, h2.symm⟩
  refine ⟨hp, ?_⟩
  apply Classical.byContradiction
  intro hn
  have he : rj = rk := hp.eq_of_length (by have := hp.length_le; omega)
  have h3 := (C23_revision_of_revision s j rj hj).1
  rw [he] at h3
  omega

/-- C23: if only end-of-line bytes follow the last marker, the last revision is the whole file. -/
theorem C23_last_revision_is_file (a eol : Bytes) (he : ∀ c ∈ eol, c = 13 ∨ c = 10) :
    extractRevision (a ++ b!"%%EOF" ++ eol) (countRevisions (a ++ b!"%%EOF" ++ eol)) = some (a ++ b!"%%EOF" ++ eol) := by
  generalize hs : a ++ b!"%%EOF" ++ eol = s
  have hocc : OccursAt b!"%%EOF" s a.length := ⟨a, eol, hs.symm, rfl⟩
  have hmem := ((C23_markers_are_occurrences s).1 _).2 hocc
  have hpos : 0 < (findAllEOF s).length := List.length_pos_of_mem hmem
  obtain ⟨r, hr⟩ := Option.isSome_iff_exists.1
    ((C23_range s (countRevisions s)).2 ⟨by unfold countRevisions; omega, Int.le_refl _⟩)
  obtain ⟨b, eol', rest, h1, h2, h3, h4, h5⟩ := C23_revision_is_prefix s _ r hr
  rw [hr]
  congr 1
  have hall : ∀ c ∈ rest, isEol c = true := by
    have hle : a.length ≤ b.length := by
      obtain ⟨i, hi, hai⟩ := List.mem_iff_getElem.1 hmem
      have hb : b.length = (findAllEOF s)[(findAllEOF s).length - 1] := by
        have : ((countRevisions s : Nat) : Int).toNat - 1 = (findAllEOF s).length - 1 := by unfold countRevisions; omega
        rw [this, List.getElem?_eq_getElem (by omega)] at h5
        exact (Option.some.inj h5).symm
      rw [← hai, hb]
      by_cases hil : i = (findAllEOF s).length - 1
      · subst hil; exact Nat.le_refl _
      · exact Nat.le_of_lt (List.pairwise_iff_getElem.1 (findAllEOF_sorted s) i _ hi (by omega) (by omega))
    intro c hc
    have hsuf : rest <:+ eol := by
      have e1 : rest <:+ s := ⟨r, h2.symm⟩
      have e2 : eol <:+ s := ⟨a ++ b!"%%EOF", hs⟩
      apply List.suffix_of_suffix_length_le e1 e2
      have l1 : s.length = a.length + 5 + eol.length := by rw [← hs]; simp; omega
      have l2 : s.length = b.length + 5 + eol'.length + rest.length := by rw [h2, h1]; simp; omega
      omega
    have := he c (hsuf.mem hc)
    unfold isEol
    simpa using this
  cases rest with
  | nil => simpa using h2.symm
  | cons c rest =>
    have := h4 c rfl
    have h6 := hall c (by simp)
    unfold isEol at h6
    simp at h6
    rcases h6 with h6 | h6
    · exact absurd h6 this.1
    · exact absurd h6 this.2

example : extractRevision b!"aa%%EOF\r\nbb%%EOF\ncc" 1 = some b!"aa%%EOF\r\n" ∧
    extractRevision b!"aa%%EOF\r\nbb%%EOF\ncc" 2 = some b!"aa%%EOF\r\nbb%%EOF\n" ∧
    extractRevision b!"aa%%EOF\r\nbb%%EOF\ncc" 3 = none ∧ extractRevision b!"aa%%EOF" 0 = none ∧
    extractRevision b!"aa%%EOF" (-1) = none := by decide +kernel

/-! ### C26 -/

/-- C26: the walk along /Prev ends for every file and start offset, however the links run: there is one
result, reached with any number of rounds from `length + 2` on. -/
theorem C26_walk_terminates (pdf : Bytes) (start : Nat) :
    ∃ offs, ∀ fuel, pdf.length + 2 ≤ fuel → prevChain pdf fuel [] start [start] = some offs := by
  have h := prevChain_total pdf (pdf.length + 2) [] start [start] (by simp) (by simp) (by simp) (by omega)
  obtain ⟨r, hr⟩ := Option.isSome_iff_exists.1 h
  refine ⟨r, fun fuel hf => ?_⟩
  have := prevChain_mono pdf _ _ _ _ r hr (fuel - (pdf.length + 2))
  rwa [show pdf.length + 2 + (fuel - (pdf.length + 2)) = fuel by omega] at this

/-- The offsets, newest first, follow the /Prev links. -/
def LinkedBy (pdf : Bytes) : List Nat → Prop
  | [] => True
  | [_] => True
  | p :: q :: r => findPrevOffset pdf p = some q ∧ LinkedBy pdf (q :: r)

theorem linkedBy_snoc {pdf : Bytes} : ∀ {l : List Nat} {p q : Nat}, LinkedBy pdf (l ++ [p]) → findPrevOffset pdf p = some q →
    LinkedBy pdf (l ++ [p, q])
  | [], _, _, _, h2 => ⟨h2, trivial⟩
  | [_], _, _, h1, h2 => ⟨h1.1, h2, trivial⟩
  | _ :: y :: l, _, _, h1, h2 => ⟨h1.1, linkedBy_snoc (l := y :: l) h1.2 h2⟩

theorem prevChain_linked (pdf : Bytes) : ∀ fuel visited cur acc offs, prevChain pdf fuel visited cur acc = some offs →
    ∀ tl, acc = cur :: tl → tl = visited → tl.Nodup → LinkedBy pdf acc.reverse →
    LinkedBy pdf offs.reverse ∧ offs.tail.Nodup ∧ acc <:+ offs ∧
      (∀ x ∈ offs, x ∈ acc ∨ 0 < x ∧ x < pdf.length) ∧
      ∃ o rest, offs = o :: rest ∧ (o ∈ rest ∨ ∀ q, findPrevOffset pdf o = some q → o = 0 ∨ q = 0 ∨ pdf.length ≤ q) := by
  intro fuel
  induction fuel with
  | zero => intro _ _ _ _ h; simp [prevChain] at h
  | succ fuel ih =>
    intro visited cur acc offs h tl hacc htl hnd hl
    subst htl
    rw [prevChain] at h
    split at h
    · rename_i hc
      cases hp : findPrevOffset pdf cur with
      | none =>
        rw [hp] at h
        simp at h
        subst h
        subst hacc
        exact ⟨hl, hnd, List.suffix_refl _, fun x hx => .inl hx, cur, tl, rfl, .inr (by rw [hp]; simp)⟩
      | some prev =>
        rw [hp] at h
        simp only at h
        split at h
        · rename_i hq
          subst hacc
          obtain ⟨g1, g2, g3, g4, g5⟩ := ih _ _ _ _ h (cur :: tl) rfl rfl (List.nodup_cons.2 ⟨hc.2, hnd⟩) (by
            have : LinkedBy pdf (tl.reverse ++ [cur, prev]) := linkedBy_snoc (by simpa using hl) hp
            simpa using this)
          refine ⟨g1, g2, (List.suffix_cons _ _).trans g3, ?_, g5⟩
          intro x hx
          rcases g4 x hx with g | g
          · rcases List.mem_cons.1 g with rfl | g
            · exact .inr hq
            · exact .inl g
          · exact .inr g
        · rename_i hq
          simp at h
          subst h
          subst hacc
          refine ⟨hl, hnd, List.suffix_refl _, fun x hx => .inl hx, cur, tl, rfl, .inr ?_⟩
          intro q hq'
          rw [hp] at hq'
          simp at hq'
          subst hq'
          omega
    · rename_i hc
      simp at h
      subst h
      subst hacc
      refine ⟨hl, hnd, List.suffix_refl _, fun x hx => .inl hx, cur, tl, rfl, ?_⟩
      by_cases hm : cur ∈ tl
      · exact .inl hm
      · exact .inr (fun q _ => .inl (by
          apply Classical.byContradiction
          intro h0
          exact hc ⟨by omega, hm⟩))

/-- C26 (partial: one repetition is possible, see the next theorem): the sections visited are, newest first, the
start and then each the one the previous points to by /Prev; the walk only stops where there is no usable
link any more or at a section already visited; no section except perhaps the last one is visited twice. -/
theorem C26_walk_follows_links_partial (pdf : Bytes) (start : Nat) (offs : List Nat)
    (h : chainOffsets pdf start = some offs) :
    (∃ r, offs.reverse = start :: r) ∧ LinkedBy pdf offs.reverse ∧ offs.tail.Nodup ∧
    (∀ x ∈ offs, x = start ∨ 0 < x ∧ x < pdf.length) ∧
    ∃ o rest, offs = o :: rest ∧ (o ∈ rest ∨ ∀ q, findPrevOffset pdf o = some q → o = 0 ∨ q = 0 ∨ pdf.length ≤ q) := by
  unfold chainOffsets at h
  obtain ⟨h1, h2, h3, h4, h5⟩ := prevChain_linked pdf _ _ _ _ _ h [] rfl rfl (by simp) trivial
  refine ⟨?_, h1, h2, fun x hx => by simpa using h4 x hx, h5⟩
  obtain ⟨t, ht⟩ := h3
  exact ⟨t.reverse, by rw [← ht]; simp⟩

/-- A file whose only section points to itself. -/
def selfLoop : Bytes := b!"%PDF-1.4\nxref\n0 0\ntrailer\n<< /Prev 9 >>\nstartxref\n9\n%%EOF\n"

/-- C26 is violated in one point: when the links form a cycle, the section that closes it is visited twice. -/
theorem C26_cycle_visited_twice_violated : chainOffsets selfLoop 9 = some [9, 9] := by decide +kernel

/-! ### C24, C56 -/

theorem delimited_of {c : Bytes} (h : Delimitable c) : Delimited c := by
  obtain ⟨h1, h2, h3⟩ := h
  refine ⟨(absent_iff (by decide)).1 h1, ?_, ?_⟩
  · intro b hb
    obtain ⟨g1, g2, g3, g4⟩ := h2 b hb
    simp [objWs, g1, g2, g3, g4]
  · rcases h3 with h3 | ⟨t, h4, h5⟩
    · exact .inl ((absent_iff (by decide)).1 h3)
    · exact .inr ⟨t, h4, (absent_iff (by decide)).1 h5⟩

theorem updOK_of {f : File} {u : Update} (h : UpdateFits f u) : UpdOK f u :=
  ⟨h.nonempty, fun e he => (absent_iff (by decide)).1 (h.contents e he), h.numbers, h.window, h.size⟩

/-- The file the writer produces in table mode, and where its cross-reference table starts. -/
def written (env : Writer.Env) (ops : List Writer.Op) : File :=
  { bytes := (Writer.write env (Writer.run env ops)).1
    xref := (Writer.header (Writer.run env ops).pdfVersion ++ (Writer.tableBody env (Writer.run env ops)).1).length }

/-- What the writer's part of a history must satisfy: table mode; numbers and sizes fit 64 bits; the keyword
`startxref` stands once in the last 106 bytes; the table fits the reader's window of 10000 bytes. -/
structure BaseFits (env : Writer.Env) (ops : List Writer.Op) : Prop where
  fair : FairOrder env
  table : (Writer.run env ops).useXRefStream = false
  plain : (Writer.run env ops).useObjectStream = false
  size : (written env ops).bytes.length ≤ 9223372036854775807
  next : (Writer.run env ops).nextObjNum ≤ 9223372036854775807
  once : ∀ i j, (written env ops).bytes.length ≤ i + 106 → (written env ops).bytes.length ≤ j + 106 →
    OccursAt b!"startxref" (written env ops).bytes i → OccursAt b!"startxref" (written env ops).bytes j → i = j
  window : (Writer.xrefTable (Writer.run env ops).nextObjNum (Writer.tableBody env (Writer.run env ops)).2.1).length + 8
    ≤ 10000

theorem itoa_len (n : Int) (h1 : 0 ≤ n) (h2 : n ≤ 9223372036854775807) : (itoa n).length ≤ 40 := by
  obtain ⟨m, rfl⟩ := Int.eq_ofNat_of_zero_le h1
  show (natDec m).length ≤ 40
  have := natDec_length_int64 m (by omega)
  omega

theorem latest_some_mem {us : List Update} {n : Int} {c : Bytes} (h : latest none us n = some c) :
    ∃ u ∈ us, ∃ e ∈ u.objs, (e.1 : Int) = n ∧ e.2 = c := by
  unfold latest at h
  cases hf : (us.flatMap (·.objs)).reverse.find? (fun e => decide ((e.1 : Int) = n)) with
  | none => rw [hf] at h; simp at h
  | some e =>
    rw [hf] at h
    simp at h
    have h1 := List.mem_of_find?_eq_some hf
    have h2 := List.find?_some hf
    rw [List.mem_reverse, List.mem_flatMap] at h1
    obtain ⟨u, hu, he⟩ := h1
    exact ⟨u, hu, e, he, by simpa using h2, h⟩

theorem latest_base (c0 : Option Bytes) (us : List Update) (n : Int) : latest c0 us n = (latest none us n).or c0 := by
  unfold latest
  cases (us.flatMap (·.objs)).reverse.find? (fun e => decide ((e.1 : Int) = n)) <;> simp

theorem scanDict_text (t : Bytes) (h : DictText t) : ∀ (d : Nat) (s : Bytes), 1 ≤ d → s ≠ [] →
    scanDict d (t ++ s) = t.length + scanDict d s := by
  induction h with
  | nil => intro d s _ _; simp
  | byte c r h1 h2 _ ih =>
    intro d s hd hs
    obtain ⟨x, l, hx⟩ : ∃ x l, r ++ s = x :: l := by
      cases hrs : r ++ s with
      | nil => simp at hrs; exact absurd hrs.2 hs
      | cons x l => exact ⟨x, l, rfl⟩
    have := ih d s hd hs
    rw [List.cons_append, hx] at *
    rw [scanDict, if_neg (fun h => h1 h.1), if_neg (fun h => h2 h.1), this]
    simp; omega
  | hex x c r h1 h2 hc _ ih =>
    intro d s hd hs
    have ihs := ih d s hd hs
    have key : ∀ y : Bytes, (60 : UInt8) ∉ y → (62 : UInt8) ∉ y →
        scanDict d (y ++ 62 :: (c :: r ++ s)) = y.length + 1 + ((c :: r).length + scanDict d s) := by
      intro y
      induction y with
      | nil =>
        intro _ _
        rw [List.nil_append, List.cons_append, scanDict, if_neg (by simp), if_neg (fun h => hc h.2), ← List.cons_append, ihs]
        simp
      | cons z y iy =>
        intro hz1 hz2
        have := iy (fun h => hz1 (by simp [h])) (fun h => hz2 (by simp [h]))
        obtain ⟨w, l, hw⟩ : ∃ w l, y ++ 62 :: (c :: r ++ s) = w :: l := by
          cases y <;> simp
        rw [List.cons_append, hw, scanDict, if_neg (fun h => hz1 (by simp [h.1])), if_neg (fun h => hz2 (by simp [h.1])), ← hw, this]
        simp; omega
    have hk := key x h1 h2
    have e : 60 :: (x ++ 62 :: c :: r) ++ s = 60 :: (x ++ 62 :: (c :: r ++ s)) := by simp
    obtain ⟨w, l, hw⟩ : ∃ w l, x ++ 62 :: (c :: r ++ s) = w :: l := by cases x <;> simp
    have hw60 : w ≠ 60 := by
      rintro rfl
      cases x with
      | nil => simp at hw
      | cons z y => simp at hw; exact h1 (by simp [hw.1])
    rw [e, hw, scanDict, if_neg (fun h => hw60 h.2), if_neg (by simp), ← hw, hk]
    simp; omega
  | dict x r _ _ ihx ihr =>
    intro d s hd hs
    have e : b!"<<" ++ x ++ b!">>" ++ r ++ s = 60 :: 60 :: (x ++ (62 :: 62 :: (r ++ s))) := by simp
    rw [e, scanDict, if_pos (by simp), ihx (d + 1) _ (by omega) (by simp), scanDict, if_neg (by simp), if_pos (by simp),
      if_neg (by omega), show d + 1 - 1 = d by omega, ihr d s hd hs]
    simp; omega

/-- C24: the trailer dictionary is found whole, whatever dictionaries are nested in it: when `trailer` stands in a section and
is followed by a dictionary, that dictionary and nothing else is searched for the trailer's entries. -/
theorem C24_trailer_dictionary (pre ws t post : Bytes) (hpre : Absent b!"trailer" (pre ++ b!"traile")) (hws : (60 : UInt8) ∉ ws) (ht : DictText t) :
    trailerDict (pre ++ b!"trailer" ++ ws ++ b!"<<" ++ t ++ b!">>" ++ post) = some (b!"<<" ++ t ++ b!">>") := by
  have h1 : index b!"trailer" (pre ++ b!"trailer" ++ ws ++ b!"<<" ++ t ++ b!">>" ++ post) = some pre.length := by
    rw [index_eq_some_iff]
    refine ⟨by simp, by simp, ?_⟩
    intro j hj hp
    have hno := (absent_iff (by decide)).1 hpre
    apply hno j
    rw [show pre ++ b!"trailer" ++ ws ++ b!"<<" ++ t ++ b!">>" ++ post =
      (pre ++ b!"traile") ++ (b!"r" ++ ws ++ b!"<<" ++ t ++ b!">>" ++ post) by simp, List.drop_append_of_le_length (by simp; omega)] at hp
    obtain ⟨q, hq⟩ := hp
    have hlen : (b!"trailer").length ≤ ((pre ++ b!"traile").drop j).length := by simp; omega
    exact List.prefix_of_prefix_length_le ⟨q, hq⟩ (List.prefix_append _ _) hlen
  have h2 : index b!"<<" (ws ++ (b!"<<" ++ (t ++ (b!">>" ++ post)))) = some ws.length := by
    rw [index_eq_some_iff]
    refine ⟨by simp, by simp, ?_⟩
    intro j hj hp
    obtain ⟨q, hq⟩ := hp
    rw [List.drop_append_of_le_length (by omega), List.drop_eq_getElem_cons hj] at hq
    simp only [List.cons_append, List.cons.injEq] at hq
    exact hws (hq.1 ▸ List.getElem_mem hj)
  unfold trailerDict
  rw [h1]
  simp only [Option.bind_some]
  have e : (pre ++ b!"trailer" ++ ws ++ b!"<<" ++ t ++ b!">>" ++ post).drop (pre.length + 7) = ws ++ (b!"<<" ++ (t ++ (b!">>" ++ post))) := by
    rw [show pre ++ b!"trailer" ++ ws ++ b!"<<" ++ t ++ b!">>" ++ post = (pre ++ b!"trailer") ++ (ws ++ (b!"<<" ++ (t ++ (b!">>" ++ post)))) by simp,
      List.drop_left' (by simp)]
  rw [e, h2, Option.map_some, List.drop_left]
  have e2 : (b!"<<" ++ (t ++ (b!">>" ++ post))).drop 2 = t ++ (b!">>" ++ post) := rfl
  have e3 : scanDict 1 (b!">>" ++ post) = 2 := by
    show scanDict 1 (62 :: 62 :: post) = 2
    rw [scanDict]; simp
  rw [e2, scanDict_text t ht 1 _ (by omega) (by simp), e3]
  congr 1
  rw [show b!"<<" ++ (t ++ (b!">>" ++ post)) = (b!"<<" ++ t ++ b!">>") ++ post by simp, List.take_left' (by simp; omega)]

theorem dictText_plain (t : Bytes) (h : ∀ c ∈ t, c ≠ 60 ∧ c ≠ 62) : DictText t := by
  induction t with
  | nil => exact .nil
  | cons c t ih => exact .byte c t (h c (by simp)).1 (h c (by simp)).2 (ih fun x hx => h x (by simp [hx]))

example : trailerDict b!"xref\n0 0\ntrailer\n<</Info <</A <</B 1>> >>/ID [<AB> <CD>]/Prev 9>>\n/Prev 8>>" =
    some b!"<</Info <</A <</B 1>> >>/ID [<AB> <CD>]/Prev 9>>" :=
  C24_trailer_dictionary b!"xref\n0 0\n" b!"\n" b!"/Info <</A <</B 1>> >>/ID [<AB> <CD>]/Prev 9" b!"\n/Prev 8>>"
    ((absent_iff (by decide)).2 (noOcc_iff_index.2 (by decide +kernel))) (by decide) (by
    have plain : ∀ t r : Bytes, (∀ c ∈ t, c ≠ 60 ∧ c ≠ 62) → DictText r → DictText (t ++ r) := by
      intro t r h hr
      induction t with
      | nil => exact hr
      | cons c t ih => exact .byte c _ (h c (by simp)).1 (h c (by simp)).2 (ih fun x hx => h x (by simp [hx]))
    refine plain b!"/Info " _ (by decide) (.dict b!"/A <</B 1>> " b!"/ID [<AB> <CD>]/Prev 9" ?_ ?_)
    · exact plain b!"/A " _ (by decide) (.dict b!"/B 1" b!" " (dictText_plain _ (by decide)) (dictText_plain _ (by decide)))
    · refine plain b!"/ID [" _ (by decide) (.hex b!"AB" 32 b!"<CD>]/Prev 9" (by decide) (by decide) (by decide) ?_)
      exact .byte _ _ (by decide) (by decide) (.hex b!"CD" 93 b!"/Prev 9" (by decide) (by decide) (by decide) (dictText_plain _ (by decide))))

/-- What Open makes of a written file followed by updates, with or without decryption: every object is found where the
newest text of it stands. -/
theorem history_open (wenv : Writer.Env) (ops : List Writer.Op) (hbase : BaseFits wenv ops)
    (us : List Update) (hus : ∀ k u, us[k]? = some u → UpdateFits ((us.take k).foldl append (written wenv ops)) u)
    (env : Incremental.Env) (crypt : Option Decrypt)
    (henc : env.handleEncryption (us.foldl append (written wenv ops)).bytes = some crypt) :
    ∃ pdf, ∃ base : Int → Option Bytes, openPdf env (us.foldl append (written wenv ops)).bytes = .ok pdf ∧
      pdf.raw = (us.foldl append (written wenv ops)).bytes ∧ pdf.crypt = crypt ∧
      (∀ n, (base n).isSome ↔ 1 ≤ n ∧ ((Writer.run wenv ops).objects.get n).isSome) ∧
      (∀ n c, base n = some c → IsBody wenv (Writer.run wenv ops) n c) ∧
      (∀ n, (pdf.refs.get n = none ∧ latest (base n) us n = none) ∨
        ∃ (p : Nat) (c : Bytes), pdf.refs.get n = some (.direct p) ∧ latest (base n) us n = some c ∧
          (itoa n ++ b!" 0 obj\n" ++ c ++ b!"\nendobj\n") <+: pdf.raw.drop p) ∧
      (∀ us0 u, us = us0 ++ [u] → pdf.root = natDec u.root ++ b!" 0 R" ∧ (u.size ≤ 9223372036854775807 → pdf.size = u.size)) := by
  have hg := good_base env.unz wenv ops hbase.table hbase.plain hbase.size hbase.once hbase.window
  obtain ⟨base, hl, hb1, hb2⟩ := loc_base wenv hbase.fair ops hbase.table hbase.plain hbase.size hbase.next
  obtain ⟨offs, ss, g1, g2, g3, _, g5⟩ := good_history us hg hl (tables_base wenv _) (fun k u hu => updOK_of (hus k u hu))
  have hbf : baseFile wenv (Writer.run wenv ops) = written wenv ops := rfl
  rw [hbf] at g1 g2
  generalize hf : us.foldl append (written wenv ops) = f at *
  unfold Loc at g2
  beta_reduce at g2
  have hread := Good.read g1
  have hlen : ¬ f.bytes.length < 8 := by
    intro hlt
    have := hf ▸ hlt
    have hmono : ∀ (us : List Update) (f : File), f.bytes.length ≤ (us.foldl append f).bytes.length := by
      intro us
      induction us with
      | nil => intro f; exact Nat.le_refl _
      | cons u us ih =>
        intro f
        refine Nat.le_trans ?_ (ih _)
        simp only [append, List.length_append]
        omega
    have h2 := hmono us (written wenv ops)
    rw [hf] at h2
    have h3 : 8 ≤ (written wenv ops).bytes.length := by
      unfold written
      simp only
      rw [Writer.write_table wenv _ hbase.table hbase.plain]
      simp [Writer.header]
      omega
    omega
  have hopen : openPdf env f.bytes = .ok (pdfOf f.bytes crypt ss) := by
    unfold openPdf
    rw [if_neg hlen, henc]
    simp [Res.ofOption, Res.bind, hread]
  have hrefs : ∀ n, (pdfOf f.bytes crypt ss).refs.get n =
      (ss.reverse.findSome? (fun s => s.objects.get n)).map Ref.direct := by
    intro n
    rw [← refs_tables g3 n]
    unfold pdfOf
    split <;> rfl
  have hraw : (pdfOf f.bytes crypt ss).raw = f.bytes ∧ (pdfOf f.bytes crypt ss).crypt = crypt := by
    unfold pdfOf
    split <;> exact ⟨rfl, rfl⟩
  refine ⟨_, base, hopen, hraw.1, hraw.2, hb1, hb2, ?_, ?_⟩
  · intro n
    rw [hrefs, hraw.1]
    rcases g2 n with ⟨h1, h2⟩ | ⟨p, c', h1, h2, h3⟩
    · exact .inl ⟨by rw [h1]; rfl, h2⟩
    · exact .inr ⟨p, c', by rw [h1]; rfl, h2, h3⟩
  · intro us0 u hu
    have hlast := g5 us0 u hu
    have e : pdfOf f.bytes crypt ss = ⟨f.bytes, crypt, refsOf ss, (updSection (us0.foldl append (written wenv ops)) u).root,
        (updSection (us0.foldl append (written wenv ops)) u).info, (updSection (us0.foldl append (written wenv ops)) u).encrypt,
        (updSection (us0.foldl append (written wenv ops)) u).size⟩ := by
      unfold pdfOf
      rw [hlast]; rfl
    rw [e]
    exact ⟨updSection_root _ _, updSection_size _ _⟩

/-- C24 (partial as `C24_newest_update_wins_partial`): the root and the size are those of the newest update. -/
theorem C24_newest_trailer_partial (wenv : Writer.Env) (ops : List Writer.Op) (hbase : BaseFits wenv ops)
    (us : List Update) (u : Update)
    (hus : ∀ k v, (us ++ [u])[k]? = some v → UpdateFits (((us ++ [u]).take k).foldl append (written wenv ops)) v)
    (hu : u.size ≤ 9223372036854775807) (env : Incremental.Env) (crypt : Option Decrypt)
    (henc : env.handleEncryption ((us ++ [u]).foldl append (written wenv ops)).bytes = some crypt) :
    ∃ pdf, openPdf env ((us ++ [u]).foldl append (written wenv ops)).bytes = .ok pdf ∧
      pdf.root = natDec u.root ++ b!" 0 R" ∧ pdf.size = u.size := by
  obtain ⟨pdf, _, h1, _, _, _, _, _, h2⟩ := history_open wenv ops hbase (us ++ [u]) hus env crypt henc
  exact ⟨pdf, h1, (h2 us u rfl).1, (h2 us u rfl).2 hu⟩

/-- C24 (partial: the files are those the writer produces in table mode followed by table-style updates, with
the side conditions of `BaseFits` and `UpdateFits`): after any number of updates of any size, Open succeeds; an
object is present exactly if the writer stored it or some update has it; and GetObject returns the body of the
newest update that has it, or else the body the writer stored. -/
theorem C24_newest_update_wins_partial (wenv : Writer.Env) (ops : List Writer.Op) (hbase : BaseFits wenv ops)
    (us : List Update) (hus : ∀ k u, us[k]? = some u → UpdateFits ((us.take k).foldl append (written wenv ops)) u)
    (env : Incremental.Env) (henc : env.handleEncryption (us.foldl append (written wenv ops)).bytes = some none) :
    ∃ pdf, openPdf env (us.foldl append (written wenv ops)).bytes = .ok pdf ∧
      (∀ n, hasObject pdf n = true ↔ (latest none us n).isSome ∨ 1 ≤ n ∧ ((Writer.run wenv ops).objects.get n).isSome) ∧
      (∀ n c, latest none us n = some c → Delimitable c →
        Incremental.getObject env pdf n = .ok (itoa n ++ b!" 0 obj\n" ++ c ++ b!"\nendobj")) ∧
      (∀ n o, latest none us n = none → 1 ≤ n → (Writer.run wenv ops).objects.get n = some o →
        ∃ c, BodyOf wenv n o c ∧ (Delimitable c →
          Incremental.getObject env pdf n = .ok (itoa n ++ b!" 0 obj\n" ++ c ++ b!"\nendobj"))) := by
  obtain ⟨pdf, base, hopen, hraw, hcr, hb1, hb2, hloc, _⟩ := history_open wenv ops hbase us hus env none henc
  have hgo : ∀ n c, latest (base n) us n = some c → Delimitable c → (itoa n).length ≤ 40 →
      Incremental.getObject env pdf n = .ok (itoa n ++ b!" 0 obj\n" ++ c ++ b!"\nendobj") := by
    intro n c hc hd hn
    rcases hloc n with ⟨_, h2⟩ | ⟨p, c', h1, h2, h3⟩
    · rw [hc] at h2; simp at h2
    · rw [hc] at h2
      simp at h2
      subst h2
      unfold Incremental.getObject
      rw [h1]
      simp only [hcr]
      exact getDirect_at pdf.raw n hn c (delimited_of hd) p h3
  refine ⟨_, hopen, ?_, ?_, ?_⟩
  · intro n
    unfold hasObject
    have : (pdf.refs.get n).isSome = (latest (base n) us n).isSome := by
      rcases hloc n with ⟨h1, h2⟩ | ⟨p, c', h1, h2, _⟩
      · rw [h1, h2]; rfl
      · rw [h1, h2]; rfl
    rw [this, latest_base, ← hb1, Option.isSome_or]
    simp
  · intro n c hc hd
    refine hgo n c (by rw [latest_base, hc]; rfl) hd ?_
    obtain ⟨u, hu, e, he, h1, _⟩ := latest_some_mem hc
    obtain ⟨k, hk⟩ := List.mem_iff_getElem?.1 hu
    have := (hus k u hk).numbers e he
    exact itoa_len n (by omega) (by omega)
  · intro n o hn h1 ho
    have hs : (base n).isSome := (hb1 n).2 ⟨h1, by rw [ho]; rfl⟩
    obtain ⟨c, hc⟩ := Option.isSome_iff_exists.1 hs
    obtain ⟨_, o', ho', hbody, _⟩ := hb2 n c hc
    rw [ho] at ho'
    simp at ho'
    subst ho'
    refine ⟨c, hbody, fun hd => hgo n c (by rw [latest_base, hn, hc]; rfl) hd ?_⟩
    have := (Writer.inv_run wenv ops).lt_next n ((Map.get_isSome_iff _ _).1 (by rw [ho]; rfl))
    exact itoa_len n (by omega) (by have := hbase.next; omega)

/-- C56 (partial: table mode, `BaseFits`, bodies that can be delimited): what was stored with
AddObject/SetObject, for every history of calls, is what Open and GetObject give back from the written file. -/
theorem C56_write_open_get_partial (wenv : Writer.Env) (ops : List Writer.Op) (hbase : BaseFits wenv ops)
    (env : Incremental.Env) (henc : env.handleEncryption (written wenv ops).bytes = some none) :
    ∃ pdf, openPdf env (Writer.write wenv (Writer.run wenv ops)).1 = .ok pdf ∧
      (∀ n, hasObject pdf n = true ↔ 1 ≤ n ∧ ((Writer.run wenv ops).objects.get n).isSome) ∧
      (∀ n o, 1 ≤ n → (Writer.run wenv ops).objects.get n = some o →
        ∃ c, BodyOf wenv n o c ∧ (Delimitable c →
          Incremental.getObject env pdf n = .ok (itoa n ++ b!" 0 obj\n" ++ c ++ b!"\nendobj"))) := by
  obtain ⟨pdf, h1, h2, _, h4⟩ := C24_newest_update_wins_partial wenv ops hbase [] (by simp) env henc
  exact ⟨pdf, h1, fun n => by rw [h2]; simp [latest], fun n o => h4 n o rfl⟩

/-- An environment for examples: no compression, no encryption. -/
def readEnv : Incremental.Env := { unz := some, handleEncryption := fun _ => some none, fallback := fun _ => .err }

/-- Base and updates for examples: a catalog, a string, a stream; then the string is replaced and an object
added. -/
def exOps : List Writer.Op :=
  [.addObject (some b!"<</Type/Catalog>>"), .addObject (some b!"(old)"), .addStream (.fresh []) (some b!"q Q") false, .setRoot 1]
def exUpdates : List Update :=
  [{ objs := [(2, b!"(new)"), (7, b!"[1 2]")], size := 8, root := 1 }, { objs := [(7, b!"[3]")], size := 8, root := 1 }]
def exFile : Bytes := (exUpdates.foldl append (written plainEnv exOps)).bytes

example : (openPdf readEnv (append ⟨exFile, 420⟩ { objs := [(9, b!"<<>>")], size := 10, root := 9 }).bytes).bind
    (fun p => .ok (p.root, p.size)) = .ok (b!"9 0 R", 10) := by decide +kernel

example : (openPdf readEnv exFile).bind (fun p => Incremental.getObject readEnv p 2) = .ok b!"2 0 obj\n(new)\nendobj" ∧
    (openPdf readEnv exFile).bind (fun p => Incremental.getObject readEnv p 7) = .ok b!"7 0 obj\n[3]\nendobj" ∧
    (openPdf readEnv exFile).bind (fun p => Incremental.getObject readEnv p 1) =
      .ok b!"1 0 obj\n<</Type/Catalog>>\nendobj" ∧
    (openPdf readEnv exFile).bind (fun p => Incremental.getObject readEnv p 3) =
      .ok b!"3 0 obj\n<</Length 3 >>\nstream\nq Q\nendstream\nendobj" ∧
    (openPdf readEnv exFile).bind (fun p => .ok (hasObject p 4)) = .ok false := by decide +kernel

example : UpdateFits (written plainEnv exOps) { objs := [(2, b!"(new)"), (7, b!"[1 2]")], size := 8, root := 1 } where
  nonempty := by decide
  contents := fun e he => by
    rw [absent_iff (by decide)]
    simp at he
    rcases he with rfl | rfl <;> exact noOcc_iff_index.2 (by decide +kernel)
  numbers := by decide
  window := by decide +kernel
  size := by decide +kernel
example : BaseFits plainEnv exOps where
  fair := plainEnv_fair
  table := rfl
  plain := rfl
  size := by decide +kernel
  next := by decide +kernel
  once := by
    have key : ∀ i, i < (written plainEnv exOps).bytes.length →
        (b!"startxref").isPrefixOf ((written plainEnv exOps).bytes.drop i) = true → i = 243 := by decide +kernel
    have all : ∀ i, OccursAt b!"startxref" (written plainEnv exOps).bytes i → i = 243 := by
      intro i hi
      rw [occursAt_iff (by decide)] at hi
      apply key i _ (List.isPrefixOf_iff_prefix.2 hi)
      apply Classical.byContradiction; intro hn
      rw [List.drop_of_length_le (by omega)] at hi
      exact absurd hi (by decide)
    intro i j _ _ hi hj
    rw [all i hi, all j hj]
  window := by decide +kernel
example : Delimitable b!"(new)" :=
  ⟨(absent_iff (by decide)).2 (noOcc_iff_index.2 (by decide +kernel)), by decide,
    .inl ((absent_iff (by decide)).2 (noOcc_iff_index.2 (by decide +kernel)))⟩

/-- C24 at the level of sections, for every list of sections: an object that is never in an object stream is
located by the newest section that lists it; otherwise by the newest section that lists it in a stream. -/
theorem C24_sections (ss : List Section) (ho : ∀ s ∈ ss, s.objects.keys.Nodup) (hs : ∀ s ∈ ss, s.streams.keys.Nodup)
    (n : Int) :
    (refsOf ss).get n = ((ss.reverse.findSome? (fun s => s.streams.get n)).map (fun p => Ref.inStream p.1 p.2)).or
      ((ss.reverse.findSome? (fun s => s.objects.get n)).map Ref.direct) :=
  refs_get ss ho hs n

/-- C24 is violated: whenever an older section has the object in an object stream, the direct object of a newer
section is ignored. -/
theorem C24_stream_shadows_update_violated (older : List Section) (newest : Section) (n off : Int) (s : Section)
    (hs : s ∈ older) (stm : Nat × Nat) (hstm : s.streams.get n = some stm) (hnew : newest.objects.get n = some off)
    (hno : newest.streams.get n = none)
    (hk : ∀ s ∈ older ++ [newest], s.objects.keys.Nodup ∧ s.streams.keys.Nodup) :
    ∃ a b, (refsOf (older ++ [newest])).get n = some (.inStream a b) := by
  rw [refs_get _ (fun s h => (hk s h).1) (fun s h => (hk s h).2)]
  have : ((older ++ [newest]).reverse.findSome? (fun s => s.streams.get n)).isSome := by
    rw [List.findSome?_isSome_iff]
    exact ⟨s, by simp [hs], by rw [hstm]; rfl⟩
  obtain ⟨p, hp⟩ := Option.isSome_iff_exists.1 this
  exact ⟨p.1, p.2, by rw [hp]; rfl⟩

/-! ### C25 -/

/-- C25 is violated in general: an object listed by any section stays present, whatever later sections say. -/
theorem C25_never_deleted_violated (pdf : Bytes) (crypt : Option Decrypt) (ss : List Section) (s : Section) (hs : s ∈ ss)
    (n : Int) (hn : (s.objects.get n).isSome ∨ (s.streams.get n).isSome)
    (hk : ∀ s ∈ ss, s.objects.keys.Nodup ∧ s.streams.keys.Nodup) : hasObject (pdfOf pdf crypt ss) n = true := by
  have hr : (pdfOf pdf crypt ss).refs = refsOf ss := by unfold pdfOf; split <;> rfl
  unfold hasObject
  rw [hr, refs_get _ (fun s h => (hk s h).1) (fun s h => (hk s h).2), Option.isSome_or, Bool.or_eq_true,
    Option.isSome_map, Option.isSome_map, List.findSome?_isSome_iff, List.findSome?_isSome_iff]
  rcases hn with h | h
  · exact .inr ⟨s, by simp [hs], h⟩
  · exact .inl ⟨s, by simp [hs], h⟩

/-- A file in which object 2 is freed by an update. -/
def deletedFile : Bytes :=
  let f := written plainEnv exOps
  f.bytes ++ b!"xref\n2 1\n0000000000 00001 f \ntrailer\n<< /Size 4 /Root 1 0 R /Prev " ++ natDec f.xref ++
    b!" >>\nstartxref\n" ++ natDec f.bytes.length ++ b!"\n%%EOF\n"

/-- C25 is violated: the freed object is still returned. -/
theorem C25_freed_object_violated :
    (openPdf readEnv deletedFile).bind (fun p => .ok (hasObject p 2, revisionCount p)) = .ok (true, 2) ∧
    (openPdf readEnv deletedFile).bind (fun p => Incremental.getObject readEnv p 2) =
      .ok b!"2 0 obj\n(old)\nendobj" := by decide +kernel

end Pdfer.Props
