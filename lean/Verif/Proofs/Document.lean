import Verif.Model.Document
import Verif.Proofs.UpdateBase

/-! Lemmas about the byte-perfect documents. -/

namespace Pdfer.Document

open Pdfer.Go Pdfer.Incremental

theorem dictScan_le (r : Bytes) : ∀ d l, dictScan d l r ≤ r.length := by
  have key : ∀ k, ∀ r : Bytes, r.length = k → ∀ d l, dictScan d l r ≤ r.length := by
    intro k
    induction k using Nat.strongRecOn with
    | ind k ih =>
      intro r hr d l
      match d, l, r, hr with
      | 0, _, _, _ => simp [dictScan]
      | _ + 1, 0, _, _ => simp [dictScan]
      | _ + 1, _ + 1, [], _ => simp [dictScan]
      | _ + 1, _ + 1, [_], _ => simp [dictScan]
      | d + 1, l + 1, c :: e :: r, hr =>
        simp only [List.length_cons] at hr
        have h1 := ih r.length (by omega) r rfl (d + 2) (l - 1)
        have h2 := ih r.length (by omega) r rfl d (l - 1)
        have h3 := ih (e :: r).length (by simp; omega) (e :: r) rfl (d + 1) l
        rw [dictScan]
        simp only [List.length_cons] at h3 ⊢
        split
        · omega
        · split <;> omega
  exact fun d l => key r.length r rfl d l

theorem index_bound {pat s : Bytes} {i : Nat} (h : index pat s = some i) : i + pat.length ≤ s.length := by
  obtain ⟨h1, h2, _⟩ := index_eq_some_iff.1 h
  have := h2.length_le
  simp at this
  omega

/-- What is known of every raw object. -/
structure Exact (pdf : Bytes) (n g : Int) (off : Nat) (o : RawObj) : Prop where
  number : o.number = n
  generation : o.generation = g
  offset : o.offset = off
  within : o.offset < o.endOffset ∧ o.endOffset ≤ pdf.length
  raw : o.raw = (pdf.take o.endOffset).drop o.offset
  ends : ∃ a, o.raw = a ++ b!"endobj" ∧ NoOcc b!"endobj" (a ++ b!"endob")
  dict : o.dictRaw = (o.raw.take o.dictEnd).drop o.dictStart ∧ o.dictEnd ≤ o.raw.length
  stream : o.streamRaw = (o.raw.take o.streamEnd).drop o.streamStart ∧ o.streamStart ≤ o.streamEnd ∧
    o.streamEnd ≤ o.raw.length

theorem parseRaw_exact {pdf : Bytes} {n g off : Int} {o : RawObj} (h : parseRawObject pdf n g off = some o) :
    0 ≤ off ∧ Exact pdf n g off.toNat o := by
  unfold parseRawObject at h
  split at h
  · simp at h
  rename_i hoff
  simp only [] at h
  split at h
  · simp at h
  have hoff' : 0 ≤ off ∧ off < pdf.length := by omega
  refine ⟨hoff'.1, ?_⟩
  generalize hk : off.toNat = k at h
  have hkl : k < pdf.length := by omega
  cases he : index b!"endobj" (pdf.drop k) with
  | none => rw [he] at h; simp at h
  | some e =>
    rw [he] at h
    simp only [] at h
    have heb := index_bound he
    obtain ⟨he1, he2, he3⟩ := index_eq_some_iff.1 he
    simp at heb
    have hraw : (pdf.drop k).take (e + 6) = (pdf.take (k + (e + 6))).drop k := by
      rw [List.drop_take]; congr 1; omega
    have hrl : ((pdf.drop k).take (e + 6)).length = e + 6 := by simp; omega
    have hends : ∃ a, (pdf.drop k).take (e + 6) = a ++ b!"endobj" ∧ NoOcc b!"endobj" (a ++ b!"endob") := by
      obtain ⟨t, ht⟩ := he2
      refine ⟨(pdf.drop k).take e, ?_, ?_⟩
      · rw [List.take_add, ← ht]
        simp
      · intro j hj
        have hj6 := hj.length_le
        simp at hj6
        refine he3 j (by omega) ?_
        have hsplit : pdf.drop k = ((pdf.drop k).take e ++ b!"endob") ++ (b!"j" ++ t) := by
          conv => lhs; rw [← List.take_append_drop e (pdf.drop k), ← ht]
          simp
        rw [hsplit, List.drop_append_of_le_length (by simp; omega)]
        exact hj.trans (List.prefix_append _ _)
    generalize hr : (pdf.drop k).take (e + 6) = raw at h hraw hrl hends
    have hbase : ∀ (bo : Bool) (ds de ss se : Nat) (dr sr : Bytes), dr = (raw.take de).drop ds → de ≤ raw.length →
        sr = (raw.take se).drop ss → ss ≤ se → se ≤ raw.length →
        Exact pdf n g k ⟨n, g, k, k + (e + 6), raw, bo, ds, de, dr, ss, se, sr⟩ := by
      intro bo ds de ss se dr sr h1 h2 h3 h4 h5
      exact ⟨rfl, rfl, rfl, ⟨by simp, by simp; omega⟩, hraw, hends, ⟨h1, h2⟩, ⟨h3, h4, h5⟩⟩
    cases hs : index b!"stream" raw with
    | none =>
      rw [hs] at h
      simp at h
      subst h
      exact hbase _ _ _ _ _ _ _ (by simp) (by simp) (by simp) (by simp) (by simp)
    | some si =>
      rw [hs] at h
      simp only [] at h
      have hsb := index_bound hs
      simp at hsb
      generalize hs1 : (if raw[si + 6]? = some 13 then si + 6 + 1 else si + 6) = s1 at h
      have hs1l : s1 ≤ raw.length ∧ si + 6 ≤ s1 := by
        rw [← hs1]
        split
        · rename_i hx
          obtain ⟨hx, _⟩ := List.getElem?_eq_some_iff.1 hx
          omega
        · omega
      generalize hs2 : (if raw[s1]? = some 10 then s1 + 1 else s1) = s2 at h
      have hs2l : s2 ≤ raw.length := by
        rw [← hs2]
        split
        · rename_i hx
          obtain ⟨hx, _⟩ := List.getElem?_eq_some_iff.1 hx
          omega
        · omega
      have hd2 : ∀ ds, index b!"<<" raw = some ds →
          ds + 2 + dictScan 1 (si - (ds + 2)) (raw.drop (ds + 2)) ≤ raw.length := by
        intro ds hd
        have h1 := dictScan_le (raw.drop (ds + 2)) 1 (si - (ds + 2))
        have h2 := index_bound hd
        simp at h1 h2
        omega
      cases hes : index b!"endstream" (raw.drop s2) with
      | none =>
        rw [hes] at h
        simp only [Option.some.injEq] at h
        cases hd : index b!"<<" raw with
        | none =>
          rw [hd] at h
          subst h
          exact hbase _ _ _ _ _ _ _ (by simp) (by simp) (by simp) (by simp) (by simp)
        | some ds =>
          rw [hd] at h
          subst h
          exact hbase _ _ _ _ _ _ _ rfl (hd2 ds hd) (by simp) (by simp) (by simp)
      | some j =>
        rw [hes] at h
        simp only [Option.some.injEq] at h
        have hjb := index_bound hes
        simp at hjb
        cases hd : index b!"<<" raw with
        | none =>
          rw [hd] at h
          subst h
          refine hbase _ _ _ _ _ _ _ (by simp) (by simp) rfl ?_ ?_
          · split <;> split <;> omega
          · split <;> split <;> omega
        | some ds =>
          rw [hd] at h
          subst h
          refine hbase _ _ _ _ _ _ _ rfl (hd2 ds hd) rfl ?_ ?_
          · split <;> split <;> omega
          · split <;> split <;> omega

theorem revObjects_mem {pdf : Bytes} {prevEnd eof : Nat} {entries : List Entry} :
    ∀ n o, (n, o) ∈ revObjects pdf prevEnd eof entries →
      ∃ e ∈ entries, e.inUse = true ∧ e.inStream = false ∧ e.num = n ∧ (prevEnd : Int) ≤ e.off ∧ e.off < eof ∧
        parseRawObject pdf e.num e.gen e.off = some o := by
  unfold revObjects
  have key : ∀ (es : List Entry) (m : Map Int RawObj), (∀ e ∈ es, e ∈ entries) →
      (∀ n o, (n, o) ∈ m → ∃ e ∈ entries, e.inUse = true ∧ e.inStream = false ∧ e.num = n ∧ (prevEnd : Int) ≤ e.off ∧
        e.off < eof ∧ parseRawObject pdf e.num e.gen e.off = some o) →
      ∀ n o, (n, o) ∈ es.foldl (fun m e =>
        if e.inUse && !e.inStream && decide (e.off ≥ (prevEnd : Int)) && decide (e.off < (eof : Int)) then
          match parseRawObject pdf e.num e.gen e.off with
          | some o => m.set e.num o
          | none => m
        else m) m → ∃ e ∈ entries, e.inUse = true ∧ e.inStream = false ∧ e.num = n ∧ (prevEnd : Int) ≤ e.off ∧
        e.off < eof ∧ parseRawObject pdf e.num e.gen e.off = some o := by
    intro es
    induction es with
    | nil => intro m _ h; exact h
    | cons e es ih =>
      intro m hes h
      rw [List.foldl_cons]
      apply ih _ (fun x hx => hes x (by simp [hx]))
      intro n o hm
      split at hm
      · rename_i hc
        simp only [Bool.and_eq_true, Bool.not_eq_true', decide_eq_true_eq] at hc
        cases hp : parseRawObject pdf e.num e.gen e.off with
        | none => rw [hp] at hm; exact h n o hm
        | some o' =>
          rw [hp] at hm
          simp only [Map.set, List.mem_cons, Prod.mk.injEq] at hm
          rcases hm with ⟨rfl, rfl⟩ | hm
          · exact ⟨e, hes e (by simp), hc.1.1.1, hc.1.1.2, rfl, hc.1.2, hc.2, hp⟩
          · exact h n o (List.mem_filter.1 hm).1
      · exact h n o hm
  exact key entries [] (fun _ h => h) (by simp)

theorem revObjects_nodup (pdf : Bytes) (prevEnd eof : Nat) (entries : List Entry) :
    (revObjects pdf prevEnd eof entries).keys.Nodup := by
  unfold revObjects
  have key : ∀ (es : List Entry) (m : Map Int RawObj), m.keys.Nodup → (es.foldl (fun m e =>
        if e.inUse && !e.inStream && decide (e.off ≥ (prevEnd : Int)) && decide (e.off < (eof : Int)) then
          match parseRawObject pdf e.num e.gen e.off with
          | some o => m.set e.num o
          | none => m
        else m) m).keys.Nodup := by
    intro es
    induction es with
    | nil => intro m h; exact h
    | cons e es ih =>
      intro m h
      rw [List.foldl_cons]
      apply ih
      split
      · split
        · exact Map.nodup_set _ _ _ h
        · exact h
      · exact h
  exact key entries [] (by simp [Map.keys])

/-- What is known of every revision. -/
structure RevOK (unz : Bytes → Option Bytes) (pdf : Bytes) (r : Revision) : Prop where
  marker : 1 ≤ r.number ∧ (findAllEOF pdf)[r.number - 1]? = some r.eofOffset
  endOff : r.endOffset = revEnd pdf r.eofOffset
  xref : parseXRefRaw unz pdf r.startXRef = .ok r.xref
  trailer : r.trailer = parseTrailerRaw pdf r.startXRef
  objects : ∃ prevEnd, r.objects = revObjects pdf prevEnd r.eofOffset r.xref.entries

theorem parseRevision_ok {unz : Bytes → Option Bytes} {pdf : Bytes} {num eof prevEnd : Nat} {r : Revision}
    (h : parseRevision unz pdf num eof prevEnd = .ok r) :
    r.number = num ∧ r.eofOffset = eof ∧ r.endOffset = revEnd pdf eof ∧ parseXRefRaw unz pdf r.startXRef = .ok r.xref ∧
    r.trailer = parseTrailerRaw pdf r.startXRef ∧ r.objects = revObjects pdf prevEnd eof r.xref.entries := by
  unfold parseRevision at h
  cases hs : searchWith (reKeyNum b!"startxref") ((pdf.take eof).drop (eof - 100)) with
  | none => rw [hs] at h; simp [Res.ofOption, Res.bind] at h
  | some ds =>
    rw [hs] at h
    simp only [Res.ofOption, Res.bind] at h
    cases hx : parseXRefRaw unz pdf (atoiClamp ds) with
    | err => rw [hx] at h; simp at h
    | panic => rw [hx] at h; simp at h
    | ok x =>
      rw [hx] at h
      simp only [] at h
      cases ht : parseTrailerRaw pdf (atoiClamp ds) with
      | none =>
        rw [ht] at h
        simp only [] at h
        split at h
        · simp at h
        · simp only [Res.ok.injEq] at h
          subst h
          exact ⟨rfl, rfl, rfl, hx, ht.symm, rfl⟩
      | some t =>
        rw [ht] at h
        simp only [Res.ok.injEq] at h
        subst h
        exact ⟨rfl, rfl, rfl, hx, ht.symm, rfl⟩

attribute [local irreducible] parseRevision in
theorem parseRevisions_nil (unz : Bytes → Option Bytes) (pdf : Bytes) (num prevEnd : Nat) :
    parseRevisions unz pdf num prevEnd [] = .ok [] := rfl

attribute [local irreducible] parseRevision in
theorem parseRevisions_cons (unz : Bytes → Option Bytes) (pdf : Bytes) (num prevEnd eof : Nat) (eofs : List Nat) :
    parseRevisions unz pdf num prevEnd (eof :: eofs) = (match parseRevision unz pdf num eof prevEnd with
      | .panic => .panic
      | .err => parseRevisions unz pdf (num + 1) prevEnd eofs
      | .ok r => (parseRevisions unz pdf (num + 1) r.endOffset eofs).bind fun rs => .ok (r :: rs)) := rfl

attribute [local irreducible] parseRevision in
theorem parseRevisions_ok {unz : Bytes → Option Bytes} {pdf : Bytes} : ∀ (eofs : List Nat) (num prevEnd : Nat)
    (rs : List Revision), 1 ≤ num → parseRevisions unz pdf num prevEnd eofs = .ok rs →
    eofs = (findAllEOF pdf).drop (num - 1) →
    (∀ r ∈ rs, RevOK unz pdf r ∧ num ≤ r.number) ∧ rs.Pairwise (fun a b => a.number < b.number) := by
  intro eofs
  induction eofs with
  | nil =>
    intro num prevEnd rs hnum h heq
    rw [parseRevisions_nil] at h
    simp only [Res.ok.injEq] at h
    subst h
    simp
  | cons eof eofs ih =>
    intro num prevEnd rs hnum h heq
    have hm : (findAllEOF pdf)[num - 1]? = some eof := by
      have : ((findAllEOF pdf).drop (num - 1))[0]? = some eof := by rw [← heq]; rfl
      simpa using this
    have htail : eofs = (findAllEOF pdf).drop (num + 1 - 1) := by
      have : eofs = ((findAllEOF pdf).drop (num - 1)).drop 1 := by rw [← heq]; rfl
      rw [this, List.drop_drop]; congr 1; omega
    rw [parseRevisions_cons] at h
    cases hr : parseRevision unz pdf num eof prevEnd with
    | panic => rw [hr] at h; simp at h
    | err =>
      rw [hr] at h
      obtain ⟨h1, h2⟩ := ih _ _ _ (by omega) h htail
      exact ⟨fun r hr => ⟨(h1 r hr).1, by have := (h1 r hr).2; omega⟩, h2⟩
    | ok r =>
      rw [hr] at h
      simp only [] at h
      cases hrest : parseRevisions unz pdf (num + 1) r.endOffset eofs with
      | panic => rw [hrest] at h; simp [Res.bind] at h
      | err => rw [hrest] at h; simp [Res.bind] at h
      | ok rs' =>
        rw [hrest] at h
        simp [Res.bind] at h
        subst h
        obtain ⟨h1, h2⟩ := ih _ _ _ (by omega) hrest htail
        obtain ⟨g1, g2, g3, g4, g5, g6⟩ := parseRevision_ok hr
        refine ⟨?_, List.pairwise_cons.2 ⟨fun x hx => by have := (h1 x hx).2; omega, h2⟩⟩
        intro x hx
        rcases List.mem_cons.1 hx with rfl | hx
        · exact ⟨⟨⟨by omega, by rw [g1, hm, g2]⟩, by rw [g3, g2], g4, g5, prevEnd, by rw [g6, g2]⟩, by omega⟩
        · exact ⟨(h1 x hx).1, by have := (h1 x hx).2; omega⟩

attribute [local irreducible] parseRevisions in
theorem parseDocument_ok {unz : Bytes → Option Bytes} {pdf : Bytes} {d : Doc} (h : parseDocument unz pdf = .ok d) :
    d.raw = pdf ∧ parseHeader pdf = some d.header ∧ d.revisions ≠ [] ∧ (∀ r ∈ d.revisions, RevOK unz pdf r) ∧
    d.revisions.Pairwise (fun a b => a.number < b.number) := by
  unfold parseDocument at h
  split at h
  · simp at h
  cases hh : parseHeader pdf with
  | none => rw [hh] at h; simp [Res.ofOption, Res.bind] at h
  | some hd =>
    rw [hh] at h
    simp only [Res.ofOption, Res.bind] at h
    split at h
    · simp at h
    cases hr : parseRevisions unz pdf 1 hd.raw.length (findAllEOF pdf) with
    | err => rw [hr] at h; simp at h
    | panic => rw [hr] at h; simp at h
    | ok rs =>
      rw [hr] at h
      simp only [] at h
      split at h
      · simp at h
      · rename_i hne
        simp only [Res.ok.injEq] at h
        subst h
        obtain ⟨h1, h2⟩ := parseRevisions_ok _ 1 _ _ (by omega) hr rfl
        exact ⟨rfl, rfl, hne, fun r hr => (h1 r hr).1, h2⟩

end Pdfer.Document
