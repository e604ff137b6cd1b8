import Verif.Props.Incremental
import Verif.Proofs.Document
import Verif.Proofs.XRefStream
import Verif.Proofs.KeyText
import Verif.Proofs.Rebuild

/-! Properties C27–C30: byte-perfect documents, queries on them, object lookup and object bodies. -/

namespace Pdfer.Props

open Pdfer.Go Pdfer.Incremental Pdfer.Spec Pdfer.Document

/-! ### C27 -/

/-- C27: the bytes of a parsed document are the input, and its raw header is the beginning of the input. -/
theorem C27_document_bytes (unz : Bytes → Option Bytes) (pdf : Bytes) (d : Doc) (h : parseDocument unz pdf = .ok d) :
    d.bytes = pdf ∧ b!"%PDF-" <+: d.header.raw ∧ d.header.raw <+: pdf ∧ d.revisions ≠ [] := by
  obtain ⟨h1, h2, h3, _⟩ := parseDocument_ok h
  refine ⟨h1, ?_, ?_, h3⟩
  · unfold parseHeader at h2
    split at h2
    · simp at h2
    · rename_i hc
      simp only [Option.some.injEq] at h2
      have hp : b!"%PDF-" <+: pdf := by
        apply Classical.byContradiction
        intro hn
        apply hc
        right
        rw [Bool.not_eq_true', ← Bool.not_eq_true, List.isPrefixOf_iff_prefix]
        exact hn
      rw [← h2]
      simp only []
      obtain ⟨t, rfl⟩ := hp
      rw [List.take_append, List.take_of_length_le]
      · exact List.prefix_append _ _
      · simp only [List.length_cons, List.length_nil]
        split <;> omega
  · unfold parseHeader at h2
    split at h2
    · simp at h2
    · simp only [Option.some.injEq] at h2
      rw [← h2]
      exact List.take_prefix _ _

/-- C27: every object of every revision stands in the input at its offset: the input is some bytes, the raw
bytes of the object, and further bytes; `Offset` and `EndOffset` are the ends of that slice; it ends with the
first `endobj` after the offset; the raw dictionary and raw stream are slices of it. -/
theorem C27_raw_object_exact (unz : Bytes → Option Bytes) (pdf : Bytes) (d : Doc) (h : parseDocument unz pdf = .ok d)
    (r : Revision) (hr : r ∈ d.revisions) (n : Int) (o : RawObj) (ho : r.objects.get n = some o) :
    o.number = n ∧
    (∃ pre post, pdf = pre ++ o.raw ++ post ∧ pre.length = o.offset ∧ pre.length + o.raw.length = o.endOffset) ∧
    (∃ a, o.raw = a ++ b!"endobj" ∧ ∀ i, OccursAt b!"endobj" o.raw i → i = a.length) ∧
    (∃ a b, o.raw = a ++ o.dictRaw ++ b) ∧ (∃ a b, o.raw = a ++ o.streamRaw ++ b) ∧
    o.offset < r.eofOffset := by
  obtain ⟨_, _, _, h4, _⟩ := parseDocument_ok h
  obtain ⟨pe, hobj⟩ := (h4 r hr).objects
  rw [hobj] at ho
  obtain ⟨e, he, _, _, hnum, hlo, hhi, hp⟩ := revObjects_mem n o (XRefStream.get_mem _ _ _ ho)
  obtain ⟨hnn, x⟩ := parseRaw_exact hp
  have slices : ∀ (s : Bytes) (i j : Nat), ∃ a b, s = a ++ (s.take j).drop i ++ b := by
    intro s i j
    refine ⟨(s.take j).take i, s.drop j, ?_⟩
    rw [List.take_append_drop, List.take_append_drop]
  refine ⟨x.number.trans hnum, ?_, ?_, ?_, ?_, ?_⟩
  · refine ⟨pdf.take o.offset, pdf.drop o.endOffset, ?_, ?_, ?_⟩
    · have hw := x.within
      rw [x.raw]
      have : pdf.take o.offset = (pdf.take o.endOffset).take o.offset := by
        rw [List.take_take]; congr 1; omega
      rw [this, List.take_append_drop, List.take_append_drop]
    · have hw := x.within
      simp; omega
    · have hw := x.within
      rw [x.raw]
      simp; omega
  · obtain ⟨a, h1, h2⟩ := x.ends
    refine ⟨a, h1, ?_⟩
    intro i hi
    rw [occursAt_iff (by decide), h1] at hi
    apply Classical.byContradiction
    intro hne
    have hlen := hi.length_le
    simp at hlen
    apply h2 i
    have e1 : (a ++ b!"endobj").drop i = (a ++ b!"endob").drop i ++ b!"j" := by
      rw [show a ++ b!"endobj" = (a ++ b!"endob") ++ b!"j" by simp, List.drop_append_of_le_length (by simp; omega)]
    rw [e1] at hi
    exact List.prefix_of_prefix_length_le hi (List.prefix_append _ _) (by simp; omega)
  · rw [x.dict.1]; exact slices _ _ _
  · rw [x.stream.1]; exact slices _ _ _
  · rw [x.offset]; omega

/-- A file of two revisions for examples (written, then updated twice). -/
def docOf (pdf : Bytes) : Option Doc := match parseDocument some pdf with | .ok d => some d | _ => none

example : (docOf exFile).map (fun d => d.revisions.map (fun r => (r.number, r.objects.map fun e => (e.1, e.2.raw)))) =
    some [(1, [(3, b!"3 0 obj\n<</Length 3 >>\nstream\nq Q\nendstream\nendobj"), (2, b!"2 0 obj\n(old)\nendobj"),
               (1, b!"1 0 obj\n<</Type/Catalog>>\nendobj")]),
          (2, [(7, b!"7 0 obj\n[1 2]\nendobj"), (2, b!"2 0 obj\n(new)\nendobj")]),
          (3, [(7, b!"7 0 obj\n[3]\nendobj")])] := by decide +kernel

/-- C27: the bytes of a revision, when `RevisionBytes` gives any, are the part of the input from the first of its objects (or its
cross-reference data, whichever comes first) to the end of the revision. -/
theorem C27_revision_bytes (unz : Bytes → Option Bytes) (pdf : Bytes) (d : Doc) (h : parseDocument unz pdf = .ok d)
    (r : Revision) (hr : r ∈ d.revisions) (b : Bytes) (hb : r.bytes d = .ok b) :
    ∃ pre post, pdf = pre ++ b ++ post ∧ pre.length + b.length = r.endOffset ∧
      extractRevision pdf r.number = some (pre ++ b) ∧ pre.length ≤ r.xref.offset ∧ (∀ n o, r.objects.get n = some o → pre.length ≤ o.offset) ∧
      (pre.length = r.xref.offset ∨ ∃ e ∈ r.objects, pre.length = e.2.offset) := by
  obtain ⟨h1, _, _, h4, _⟩ := parseDocument_ok h
  have hraw : d.raw = pdf := h1
  have hmin : ∀ (l : List (Int × RawObj)) (s : Nat),
      let m := l.foldl (fun s e => if e.2.offset < s then e.2.offset else s) s
      m ≤ s ∧ (∀ e ∈ l, m ≤ e.2.offset) ∧ (m = s ∨ ∃ e ∈ l, m = e.2.offset) := by
    intro l
    induction l with
    | nil => intro s; simp
    | cons e l ih =>
      intro s
      obtain ⟨i1, i2, i3⟩ := ih (if e.2.offset < s then e.2.offset else s)
      simp only [List.foldl_cons]
      refine ⟨?_, ?_, ?_⟩
      · split at i1 <;> rename_i hc <;> simp only [hc, if_true, if_false] <;> omega
      · intro x hx
        rcases List.mem_cons.1 hx with rfl | hx
        · refine Nat.le_trans i1 ?_
          split <;> omega
        · exact i2 x hx
      · rcases i3 with i3 | ⟨x, hx, i3⟩
        · rw [i3]
          split
          · exact .inr ⟨e, by simp, rfl⟩
          · exact .inl rfl
        · exact .inr ⟨x, by simp [hx], i3⟩
  unfold Revision.bytes at hb
  obtain ⟨m1, m2, m3⟩ := hmin r.objects r.xref.offset
  generalize r.objects.foldl (fun s e => if e.2.offset < s then e.2.offset else s) r.xref.offset = st at *
  simp only at hb
  split at hb
  · simp at hb
  · unfold slice at hb
    split at hb
    · rename_i hc
      simp only [Res.ok.injEq] at hb
      subst hb
      rw [hraw] at hc ⊢
      refine ⟨pdf.take st, pdf.drop r.endOffset, ?_, ?_, ?_, ?_, ?_, ?_⟩
      · rw [show pdf.take st = (pdf.take r.endOffset).take st by rw [List.take_take]; congr 1; omega, List.take_append_drop,
          List.take_append_drop]
      · simp; omega
      · rw [show pdf.take st = (pdf.take r.endOffset).take st by rw [List.take_take]; congr 1; omega, List.take_append_drop]
        obtain ⟨k1, k2⟩ := (h4 r hr).marker
        rw [(h4 r hr).endOff]
        have hlt : r.number - 1 < (findAllEOF pdf).length := by
          rw [List.getElem?_eq_some_iff] at k2; exact k2.1
        have := extract_eq pdf (r.number - 1) hlt
        rw [show ((r.number - 1 + 1 : Nat) : Int) = r.number by omega] at this
        rw [this]
        congr 2
        rw [List.getElem?_eq_getElem hlt, Option.some.injEq] at k2
        rw [k2]
      · simp only [List.length_take]; omega
      · intro n o ho
        have := m2 _ (XRefStream.get_mem _ _ _ ho)
        simp only [List.length_take] at this ⊢; omega
      · have e : (pdf.take st).length = st := by simp; omega
        rw [e]; exact m3
    · simp at hb

/-- The bytes of every revision of a file, `none` for a revision whose bytes cannot be had. -/
def revisionBytes (pdf : Bytes) : Option (List (Option Bytes)) :=
  (docOf pdf).map fun d => d.revisions.map fun r => match r.bytes d with | .ok b => some b | _ => none

example : (revisionBytes exFile).map (·.map (·.map fun b => (b.take 7, b.length))) =
    some [some (b!"1 0 obj", 248), some (b!"2 0 obj", 159), some (b!"7 0 obj", 112)] := by decide +kernel

/-- A file whose first revision points to the cross-reference table of the second. -/
def crossPointing : Bytes :=
  b!"%PDF-1.4\nstartxref\n33\n%%EOF\n%abc\nxref\n0 1\n0000000000 65535 f \ntrailer\n<< /Size 1 >>\nstartxref\n33\n%%EOF\n"

/-- C27 does not hold for such a file: it opens, but asking for the bytes of its first revision crashes. -/
theorem C27_revision_bytes_violated :
    ((docOf crossPointing).bind fun d => d.revisions.head?.map fun r => r.bytes d) = some Res.panic := by decide +kernel

/-- C27: the content of an object is what stands between its header and `endobj`, without the white space around it. -/
theorem C27_content (n g : Nat) (ws body ws' : Bytes) (hws : ∀ c ∈ ws, isWs c = true) (hws' : ∀ c ∈ ws', isWs c = true)
    (hb : body ≠ []) (hb1 : ∀ c, body.head? = some c → isWs c = false) (hb2 : ∀ c, body.getLast? = some c → isWs c = false)
    (o : RawObj) (ho : o.raw = natDec n ++ b!" " ++ natDec g ++ b!" obj" ++ ws ++ body ++ ws' ++ b!"endobj") :
    content o = some body := by
  have hidx : ∀ rest, index b!"obj" (natDec n ++ b!" " ++ natDec g ++ b!" obj" ++ rest) =
      some (natDec n ++ b!" " ++ natDec g ++ b!" ").length := by
    intro rest
    have := Manipulate.index_first (c := 111) (k := b!"bj") (pre := natDec n ++ b!" " ++ natDec g ++ b!" ") (rest := rest) (by decide)
      (noOcc_of_head (by
        have h1 := not_mem_natDec (c := 111) (by decide) n
        have h2 := not_mem_natDec (c := 111) (by decide) g
        simp [h1, h2]))
    simpa using this
  have hend : ∀ a : Bytes, lastIndex b!"endobj" (a ++ b!"endobj") = some a.length := by
    intro a
    have := Manipulate.lastIndex_append (pat := b!"endobj") (t := b!"endobj") (i := 0) a (by decide)
    simpa using this
  have htw : ∀ (a b : Bytes), (∀ c ∈ a, isWs c = true) → (∀ c, b.head? = some c → isWs c = false) →
      (a ++ b).takeWhile isWs = a := by
    intro a b ha hb
    induction a with
    | nil => cases b with
      | nil => rfl
      | cons c b => simp [List.takeWhile, hb c rfl]
    | cons c a ih => simp [ha c (by simp), ih (fun c hc => ha c (by simp [hc]))]
  have hne : o.raw ≠ [] := by rw [ho]; simp
  generalize hpre : natDec n ++ b!" " ++ natDec g ++ b!" " = pre at *
  have hraw : o.raw = pre ++ b!"obj" ++ ws ++ body ++ ws' ++ b!"endobj" := by
    rw [ho, ← hpre]; simp
  have hidx' : index b!"obj" (o.raw.take (o.raw.length - 1)) = some pre.length := by
    have : o.raw.take (o.raw.length - 1) = natDec n ++ b!" " ++ natDec g ++ b!" obj" ++ (ws ++ body ++ ws' ++ b!"endob") := by
      rw [ho]
      rw [show natDec n ++ b!" " ++ natDec g ++ b!" obj" ++ ws ++ body ++ ws' ++ b!"endobj" =
        (natDec n ++ b!" " ++ natDec g ++ b!" obj" ++ (ws ++ body ++ ws' ++ b!"endob")) ++ b!"j" by simp]
      rw [List.take_left']
      simp; omega
    rw [this, hidx]
  have hlast : lastIndex b!"endobj" o.raw = some (pre ++ b!"obj" ++ ws ++ body ++ ws').length := by
    rw [hraw]; exact hend _
  have hstart : ((o.raw.drop (pre.length + 3)).takeWhile isWs) = ws := by
    rw [hraw, show pre ++ b!"obj" ++ ws ++ body ++ ws' ++ b!"endobj" = (pre ++ b!"obj") ++ (ws ++ (body ++ (ws' ++ b!"endobj"))) by simp,
      List.drop_left' (by simp)]
    apply htw _ _ hws
    intro c hc
    apply hb1
    cases body with
    | nil => exact absurd rfl hb
    | cons x t => simpa using hc
  have hlen : 0 < body.length := List.length_pos_iff.2 hb
  have hmid : (o.raw.take (pre ++ b!"obj" ++ ws ++ body ++ ws').length).drop (pre.length + 3 + ws.length) = body ++ ws' := by
    rw [hraw, List.take_left, show pre ++ b!"obj" ++ ws ++ body ++ ws' = (pre ++ b!"obj" ++ ws) ++ (body ++ ws') by simp,
      List.drop_left' (by simp; omega)]
  unfold content
  rw [if_neg hne, hidx', hlast]
  simp only [hstart, hmid]
  rw [List.reverse_append, htw _ _ (by simpa using hws') (by intro c hc; exact hb2 c (by simpa using hc))]
  rw [if_neg (c := (pre ++ b!"obj" ++ ws ++ body ++ ws').length ≤ pre.length + 3 + ws.length) (by simp; omega)]
  have e1 : (pre ++ b!"obj" ++ ws ++ body ++ ws').length - ws'.reverse.length = (pre ++ b!"obj" ++ ws ++ body).length := by
    simp; omega
  rw [e1, if_neg (by simp; omega)]
  rw [hraw, show pre ++ b!"obj" ++ ws ++ body ++ ws' ++ b!"endobj" = (pre ++ b!"obj" ++ ws ++ body) ++ (ws' ++ b!"endobj") by simp,
    List.take_left, List.drop_left' (by simp; omega)]

example : content ⟨12, 0, 0, 0, b!"12 0 obj\r\n<</Type /Page>>\n\nendobj", false, 0, 0, [], 0, 0, []⟩ = some b!"<</Type /Page>>" := by
  decide +kernel

/-! ### C28 -/

/-- C28: the newest revision that has the object decides: `GetObject n` is `o` exactly when some revision has `o` for
`n` and no later revision has anything for `n`. -/
theorem C28_newest_revision (d : Doc) (n : Int) (o : RawObj) :
    d.getObject n = some o ↔ ∃ older r newer, d.revisions = older ++ r :: newer ∧ r.objects.get n = some o ∧
      ∀ r' ∈ newer, r'.objects.get n = none := by
  unfold Doc.getObject
  rw [List.findSome?_eq_some_iff]
  constructor
  · rintro ⟨l1, r, l2, h1, h2, h3⟩
    refine ⟨l2.reverse, r, l1.reverse, ?_, h2, ?_⟩
    · have := congrArg List.reverse h1
      simpa using this
    · intro r' hr'
      exact h3 r' (List.mem_reverse.1 hr')
  · rintro ⟨older, r, newer, h1, h2, h3⟩
    refine ⟨newer.reverse, r, older.reverse, ?_, h2, ?_⟩
    · rw [h1]; simp
    · intro r' hr'
      exact h3 r' (List.mem_reverse.1 hr')

/-- C28: for every parsed document, `AllObjects` holds for each number exactly what `GetObject` and `GetRawObject`
return, each number once, and `ObjectCount` is its size. -/
theorem C28_queries_agree (unz : Bytes → Option Bytes) (pdf : Bytes) (d : Doc) (h : parseDocument unz pdf = .ok d) :
    (∀ n, d.allObjects.get n = d.getObject n ∧ getRawObject d n = d.getObject n) ∧ d.allObjects.keys.Nodup ∧
    d.objectCount = d.allObjects.length := by
  obtain ⟨_, _, _, h4, _⟩ := parseDocument_ok h
  have hnd : ∀ r ∈ d.revisions, r.objects.keys.Nodup := by
    intro r hr
    obtain ⟨pe, hp⟩ := (h4 r hr).objects
    rw [hp]; exact revObjects_nodup _ _ _ _
  refine ⟨fun n => ⟨?_, rfl⟩, merged_nodup _ _ [] (by simp [Map.keys]), ?_⟩
  · unfold Doc.allObjects Doc.getObject
    rw [merged_get (fun r : Revision => r.objects) _ hnd n []]
    cases List.findSome? _ _ <;> rfl
  · unfold Doc.objectCount Doc.allObjects
    have hk : ∀ (rs : List Revision) (m1 : Map Int Unit) (m2 : Map Int RawObj), m1 = m2.map (fun e => (e.1, ())) →
        rs.foldl (fun m r => mergeInto m (r.objects.map fun e => (e.1, ()))) m1 =
        (rs.foldl (fun m r => mergeInto m r.objects) m2).map (fun e => (e.1, ())) := by
      intro rs
      induction rs with
      | nil => intro m1 m2 h; exact h
      | cons r rs ih =>
        intro m1 m2 h
        rw [List.foldl_cons, List.foldl_cons]
        apply ih
        subst h
        generalize r.objects = objs
        unfold mergeInto
        induction objs generalizing m2 with
        | nil => rfl
        | cons e objs ih2 =>
          rw [List.map_cons, List.foldl_cons, List.foldl_cons]
          have : Map.set (m2.map (fun e => (e.1, ()))) e.1 () = (m2.set e.1 e.2).map (fun e => (e.1, ())) := by
            simp only [Map.set, List.map_cons, List.cons.injEq, true_and, List.filter_map]
            rfl
          rw [this]
          exact ih2 _
    rw [hk _ [] [] rfl, List.length_map]

/-- C28: a byte-perfectly opened PDF has exactly the objects of its document, located at the raw object's offset,
and reports their number. -/
theorem C28_perfect_pdf_agrees (env : Incremental.Env) (pdf : Bytes) (p : Pdf) (d : Doc)
    (h : openPerfect env pdf = .ok (p, d)) :
    p.raw = pdf ∧ d.bytes = pdf ∧ (∀ n, p.refs.get n = (d.getObject n).map (fun o => Ref.direct o.offset)) ∧
    (∀ n, hasObject p n = true ↔ (d.getObject n).isSome) ∧ objectCount p = d.objectCount := by
  unfold openPerfect at h
  split at h
  · simp at h
  cases hc : env.handleEncryption pdf with
  | none => rw [hc] at h; simp [Res.ofOption, Res.bind] at h
  | some crypt =>
    rw [hc] at h
    simp only [Res.ofOption, Res.bind] at h
    cases hd : parseDocument env.unz pdf with
    | err => rw [hd] at h; simp at h
    | panic => rw [hd] at h; simp at h
    | ok d' =>
      rw [hd] at h
      simp only [Res.ok.injEq, Prod.mk.injEq] at h
      obtain ⟨rfl, rfl⟩ := h
      obtain ⟨_, _, _, h4, _⟩ := parseDocument_ok hd
      have hnd : ∀ r ∈ d'.revisions, r.objects.keys.Nodup := by
        intro r hr
        obtain ⟨pe, hp⟩ := (h4 r hr).objects
        rw [hp]; exact revObjects_nodup _ _ _ _
      have hmap : ∀ (rs : List Revision) (m1 : Map Int Ref) (m2 : Map Int RawObj),
          m1 = m2.map (fun e => (e.1, Ref.direct e.2.offset)) →
          rs.foldl (fun m r => mergeInto m (r.objects.map fun e => (e.1, Ref.direct e.2.offset))) m1 =
          (rs.foldl (fun m r => mergeInto m r.objects) m2).map (fun e => (e.1, Ref.direct e.2.offset)) := by
        intro rs
        induction rs with
        | nil => intro m1 m2 h; exact h
        | cons r rs ih =>
          intro m1 m2 h
          rw [List.foldl_cons, List.foldl_cons]
          apply ih
          subst h
          generalize r.objects = objs
          unfold mergeInto
          induction objs generalizing m2 with
          | nil => rfl
          | cons e objs ih2 =>
            rw [List.map_cons, List.foldl_cons, List.foldl_cons]
            have : Map.set (m2.map (fun e => (e.1, Ref.direct e.2.offset))) e.1 (Ref.direct e.2.offset) =
                (m2.set e.1 e.2).map (fun e => (e.1, Ref.direct e.2.offset)) := by
              simp only [Map.set, List.map_cons, List.cons.injEq, true_and, List.filter_map]
              rfl
            rw [this]
            exact ih2 _
      have hrefs : (perfectOf pdf crypt d').refs = d'.allObjects.map (fun e => (e.1, Ref.direct e.2.offset)) := by
        show List.foldl _ _ _ = _
        exact hmap _ [] [] rfl
      obtain ⟨q1, _, q3⟩ := C28_queries_agree env.unz pdf d' hd
      have hget : ∀ n, (perfectOf pdf crypt d').refs.get n = (d'.getObject n).map (fun o => Ref.direct o.offset) := by
        intro n
        rw [hrefs, get_map d'.allObjects (fun o => Ref.direct o.offset) n, (q1 n).1]
      refine ⟨rfl, (C27_document_bytes _ _ _ hd).1, hget, ?_, ?_⟩
      · intro n
        unfold hasObject
        rw [hget, Option.isSome_map]
      · unfold objectCount
        rw [hrefs, List.length_map, q3]

/-- A file whose first section cannot be read (its `startxref` points past the end), followed by a good one. -/
def brokenFirst : Bytes :=
  let pre := b!"%PDF-1.4\nstartxref\n9999\n%%EOF\n1 0 obj\n(x)\nendobj\n"
  pre ++ b!"xref\n0 2\n0000000000 65535 f \n0000000030 00000 n \ntrailer\n<< /Size 2 >>\nstartxref\n" ++
    natDec pre.length ++ b!"\n%%EOF\n"

/-- C28 is violated by `GetObjectInRevision` when a revision could not be read: the document's only revision is number
2, but it is found under number 1. -/
theorem C28_revision_number_violated : (docOf brokenFirst).map (fun d =>
      (d.revisions.map (·.number), (d.getObjectInRevision 1 1).map (·.raw), (d.getObjectInRevision 1 2).map (·.raw))) =
    some ([2], some b!"1 0 obj\n(x)\nendobj", none) := by decide +kernel

/-- C28 (partial: all revisions readable): when no revision was skipped, `GetObjectInRevision n k` is the object of the
revision whose number is `k`, and nothing else. -/
theorem C28_revision_lookup_partial (d : Doc) (hall : ∀ i r, d.revisions[i]? = some r → r.number = i + 1) (n k : Int)
    (o : RawObj) : d.getObjectInRevision n k = some o ↔
      ∃ r ∈ d.revisions, (r.number : Int) = k ∧ r.objects.get n = some o := by
  unfold Doc.getObjectInRevision
  constructor
  · intro h
    split at h
    · simp at h
    · rename_i hk
      rw [Option.bind_eq_some_iff] at h
      obtain ⟨r, hr, ho⟩ := h
      exact ⟨r, List.mem_of_getElem? hr, by have := hall _ _ hr; omega, ho⟩
  · rintro ⟨r, hr, hk, ho⟩
    obtain ⟨i, hi⟩ := List.mem_iff_getElem?.1 hr
    have h1 := hall i r hi
    have h2 : i < d.revisions.length := (List.getElem?_eq_some_iff.1 hi).1
    rw [if_neg (by omega), show k.toNat - 1 = i by omega, hi]
    exact ho

/-! ### C29 -/

theorem index_at {pat u r : Bytes} (hp : pat ≠ []) (h : NoOcc pat (u ++ pat.dropLast)) :
    index pat (u ++ pat ++ r) = some u.length := by
  rw [index_eq_some_iff]
  refine ⟨by simp, ?_, ?_⟩
  · rw [List.append_assoc, List.drop_left]
    exact List.prefix_append _ _
  · intro j hj hx
    apply h j
    have hpl : 0 < pat.length := List.length_pos_of_ne_nil hp
    have hsplit : u ++ pat ++ r = (u ++ pat.dropLast) ++ ([pat.getLast hp] ++ r) := by
      conv => lhs; rw [← List.dropLast_append_getLast hp]
      simp [List.append_assoc]
    rw [hsplit, List.drop_append_of_le_length (by simp; omega)] at hx
    exact List.prefix_of_prefix_length_le hx (List.prefix_append _ _) (by simp; omega)

/-- C29: the text search returns the first place where the decimal number followed by ` 0 obj` stands – whatever
stands before it. -/
theorem C29_search_is_first_text (xref : Bytes → Nat → Option (Map Int Int)) (pdf : Bytes) (n : Int) (i : Nat)
    (hi : OccursAt (itoa n ++ b!" 0 obj") pdf i) :
    ∃ (k : Nat), findObjectByNumber xref pdf n = some (k : Int) ∧ OccursAt (itoa n ++ b!" 0 obj") pdf k ∧
      ∀ j, OccursAt (itoa n ++ b!" 0 obj") pdf j → k ≤ j := by
  have hne : itoa n ++ b!" 0 obj" ≠ [] := by simp
  unfold findObjectByNumber
  cases hx : index (itoa n ++ b!" 0 obj") pdf with
  | none =>
    exact absurd ((occursAt_iff hne i).1 hi) (noOcc_iff_index.2 hx i)
  | some k =>
    obtain ⟨_, h2, h3⟩ := index_eq_some_iff.1 hx
    refine ⟨k, rfl, (occursAt_iff hne k).2 h2, ?_⟩
    intro j hj
    apply Classical.byContradiction
    intro hlt
    exact h3 j (by omega) ((occursAt_iff hne j).1 hj)

/-- C29 is violated: whenever the first object whose number ends in the digits of `n` has further digits in front, the
position returned is inside that other number. -/
theorem C29_suffix_number_violated (xref : Bytes → Nat → Option (Map Int Int)) (pre rest : Bytes) (d n : Nat)
    (hpre : ∀ i, OccursAt (natDec n ++ b!" 0 obj") (pre ++ natDec d ++ natDec n ++ b!" 0 ob") i → False) :
    findObjectByNumber xref (pre ++ natDec d ++ natDec n ++ b!" 0 obj" ++ rest) n =
      some ((pre ++ natDec d).length : Int) ∧ (natDec d).length ≥ 1 := by
  refine ⟨?_, List.length_pos_of_ne_nil (natDec_ne_nil d)⟩
  have hne : natDec n ++ b!" 0 obj" ≠ [] := by simp
  have hi : index (natDec n ++ b!" 0 obj") (pre ++ natDec d ++ natDec n ++ b!" 0 obj" ++ rest) =
      some (pre ++ natDec d).length := by
    rw [List.append_assoc (pre ++ natDec d) (natDec n)]
    refine index_at hne ?_
    intro j hj
    apply hpre j
    rw [occursAt_iff hne]
    have : (natDec n ++ b!" 0 obj").dropLast = natDec n ++ b!" 0 ob" := by
      rw [List.dropLast_append_of_ne_nil (by simp)]; rfl
    rw [this] at hj
    simpa [List.append_assoc] using hj
  unfold findObjectByNumber
  rw [show itoa (n : Int) = natDec n from rfl, hi]

/-- A file in which object 15 stands before object 5. -/
def suffixFile : Bytes := b!"%PDF-1.4\n15 0 obj\n(fifteen)\nendobj\n5 0 obj\n(five)\nendobj\n"

/-- C29 is violated on a concrete file: asked for object 5, the search returns position 10, where `5 0 obj` is the end of
`15 0 obj`; object 5 stands at position 35. -/
theorem C29_wrong_object_violated (xref : Bytes → Nat → Option (Map Int Int)) :
    findObjectByNumber xref suffixFile 5 = some 10 ∧ (suffixFile.drop 9).take 8 = b!"15 0 obj" ∧
    (suffixFile.drop 35).take 7 = b!"5 0 obj" := by
  refine ⟨?_, by decide, by decide⟩
  have : index (itoa 5 ++ b!" 0 obj") suffixFile = some 10 := by decide +kernel
  unfold findObjectByNumber
  rw [this]
  rfl

/-- Position of object `n` in a list of objects laid out from `pos`. -/
theorem places_find : ∀ (objs : List (Nat × Bytes)) (pos : Nat) (n : Nat) (p : Nat), (n, p) ∈ places pos objs →
    ∃ l1 c l2, objs = l1 ++ (n, c) :: l2 ∧ p = pos + (objectsText l1).length
  | [], _, _, _, h => by simp [places] at h
  | (m, c) :: r, pos, n, p, h => by
    rw [places, List.mem_cons] at h
    rcases h with h | h
    · simp only [Prod.mk.injEq] at h
      obtain ⟨rfl, rfl⟩ := h
      exact ⟨[], c, r, rfl, by simp [objectsText]⟩
    · obtain ⟨l1, c', l2, h1, h2⟩ := places_find r _ n p h
      exact ⟨(m, c) :: l1, c', l2, by rw [h1]; rfl, by rw [h2]; simp [objectsText]; omega⟩

theorem natDec_pow (n : Nat) : n < 10 ^ (natDec n).length := by
  induction n using natDec_induct with
  | base n h => rw [natDec_lt h]; simpa using h
  | step n h ih =>
    rw [natDec_ge h, List.length_append, List.length_singleton, Nat.pow_succ]
    omega

theorem natDec_length_mono {m n : Nat} (h : m ≤ n) : (natDec m).length ≤ (natDec n).length := by
  obtain ⟨k, hk⟩ : ∃ k, (natDec n).length = k := ⟨_, rfl⟩
  have hpos : 1 ≤ k := hk ▸ List.length_pos_of_ne_nil (natDec_ne_nil n)
  rw [hk]
  refine natDec_length_le k m hpos (Nat.lt_of_le_of_lt h ?_)
  rw [← hk]
  exact natDec_pow n

/-- C29 (partial: objects in ascending order, no ` 0 obj` inside contents or the header): in a file that starts with
some header line and then lists objects in ascending order, the position returned for each of them is exactly that
of its header. -/
theorem C29_ascending_file_partial (xref : Bytes → Nat → Option (Map Int Int)) (hd tail : Bytes) (objs : List (Nat × Bytes))
    (hhd : Absent b!" 0 obj" hd) (hc : ∀ e ∈ objs, Absent b!" 0 obj" e.2) (hs : objs.Pairwise (fun a b => a.1 < b.1))
    (n p : Nat) (hp : (n, p) ∈ places (hd.length + 1) objs) :
    findObjectByNumber xref (hd ++ b!"\n" ++ objectsText objs ++ tail) n = some (p : Int) := by
  obtain ⟨l1, c, l2, rfl, hpos⟩ := places_find objs _ n p hp
  have hne : natDec n ++ b!" 0 obj" ≠ [] := by simp
  have hweak : ∀ s, Absent b!" 0 obj" s → NoOcc (natDec n ++ b!" 0 obj") s := by
    intro s h j hj
    apply h (j + (natDec n).length)
    rw [occursAt_iff (by decide)]
    obtain ⟨t, ht⟩ := hj
    rw [← List.drop_drop, ← ht, List.append_assoc, List.drop_left]
    exact List.prefix_append _ _
  have hnl : (10 : UInt8) ∉ natDec n ++ b!" 0 obj" := by
    rw [List.mem_append, not_or]
    exact ⟨not_mem_natDec (by decide) n, by decide⟩
  have key : ∀ (l : List (Nat × Bytes)), (∀ e ∈ l, e.1 < n ∧ Absent b!" 0 obj" e.2) → ∀ x, NoOcc (natDec n ++ b!" 0 obj") x →
      ∃ y, x ++ b!"\n" ++ objectsText l = y ++ b!"\n" ∧ NoOcc (natDec n ++ b!" 0 obj") y := by
    intro l
    induction l with
    | nil => intro _ x hx; exact ⟨x, by simp [objectsText], hx⟩
    | cons e l ih =>
      intro hl x hx
      have he := hl e (by simp)
      have h1 : NoOcc (natDec n ++ b!" 0 obj") (natDec e.1 ++ b!" 0 obj") := by
        intro j hj
        have hlen := hj.length_le
        simp at hlen
        have hm := natDec_length_mono (Nat.le_of_lt he.1)
        have hj0 : j = 0 := by omega
        subst hj0
        have heq := List.IsPrefix.eq_of_length hj (by simp; omega)
        have := List.append_cancel_right heq
        have := natDec_inj this
        omega
      have h2 := hweak e.2 he.2
      have h3 : NoOcc (natDec n ++ b!" 0 obj") b!"endobj" := noOcc_of_mem (c := 32) (by simp) (by decide)
      obtain ⟨y, hy, hny⟩ := ih (fun z hz => hl z (by simp [hz]))
        (x ++ 10 :: ((natDec e.1 ++ b!" 0 obj") ++ 10 :: (e.2 ++ 10 :: b!"endobj")))
        (noOcc_mid hnl hx (noOcc_mid hnl h1 (noOcc_mid hnl h2 h3)))
      refine ⟨y, ?_, hny⟩
      rw [← hy]
      simp [objectsText, objectText, List.append_assoc]
  obtain ⟨y, hy, hny⟩ := key l1 (by
    intro e he
    refine ⟨?_, hc e (by simp [he])⟩
    rw [List.pairwise_append] at hs
    exact hs.2.2 e he (n, c) (by simp)) hd (hweak hd hhd)
  have hfile : hd ++ b!"\n" ++ objectsText (l1 ++ (n, c) :: l2) ++ tail =
      y ++ 10 :: ((natDec n ++ b!" 0 obj") ++ (b!"\n" ++ c ++ b!"\nendobj\n" ++ objectsText l2 ++ tail)) := by
    have : objectsText (l1 ++ (n, c) :: l2) = objectsText l1 ++ (objectText n c ++ objectsText l2) := by
      simp [objectsText]
    rw [this, ← List.append_assoc, hy]
    simp [objectText, List.append_assoc]
  have hyl : y.length + 1 = p := by
    have := congrArg List.length hy
    simp at this
    omega
  have hi := index_after hnl hny (List.prefix_append (natDec n ++ b!" 0 obj")
    (b!"\n" ++ c ++ b!"\nendobj\n" ++ objectsText l2 ++ tail))
  rw [← hfile, hyl] at hi
  unfold findObjectByNumber
  rw [show itoa (n : Int) = natDec n from rfl, hi]

example : (5, 30) ∈ places (b!"%PDF-1.4".length + 1) [(1, b!"(one)"), (5, b!"(five)"), (15, b!"(fifteen)")] ∧
    findObjectByNumber (fun _ _ => none)
      (b!"%PDF-1.4" ++ b!"\n" ++ objectsText [(1, b!"(one)"), (5, b!"(five)"), (15, b!"(fifteen)")] ++ b!"xref") 5 =
      some 30 := by decide +kernel

/-- C29 is violated by the stand-alone lookup when the first `startxref` of the file is 0, as in the first section of
linearized files: every lookup fails, also for objects that the file has. -/
theorem C29_linearized_violated (unz : Bytes → Option Bytes) (crypt : Option Decrypt) (a b : Bytes)
    (ha : Absent b!"startxref" (a ++ b!"startxre")) (n : Int) :
    findObjectLocation unz (a ++ b!"startxref\n0\n" ++ b) n = .err ∧
    Document.getObject unz crypt (a ++ b!"startxref\n0\n" ++ b) n = .err := by
  have hs : searchWith (reKeyNum b!"startxref") (a ++ b!"startxref\n0\n" ++ b) = some b!"0" := by
    have key : ∀ (a : Bytes), Absent b!"startxref" (a ++ b!"startxre") →
        searchWith (reKeyNum b!"startxref") (a ++ b!"startxref\n0\n" ++ b) = some b!"0" := by
      intro a
      induction a with
      | nil =>
        intro _
        exact searchWith_here rfl
      | cons c a ih =>
        intro h
        have hn := (absent_iff (by decide)).1 h
        have h0 : reKeyNum b!"startxref" (c :: (a ++ b!"startxref\n0\n" ++ b)) = none := by
          apply Classical.byContradiction
          intro hne
          have hpre : b!"startxref" <+: c :: (a ++ b!"startxref\n0\n" ++ b) := by
            apply reLit_prefix
            intro hl
            apply hne
            unfold reKeyNum
            rw [hl]; rfl
          apply hn 0
          have hsplit : c :: (a ++ b!"startxref\n0\n" ++ b) = (c :: a ++ b!"startxre") ++ (b!"f\n0\n" ++ b) := by simp
          rw [hsplit] at hpre
          exact List.prefix_of_prefix_length_le hpre (List.prefix_append _ _) (by simp)
        rw [List.cons_append, List.cons_append, searchWith, h0]
        apply ih
        rw [absent_iff (by decide)]
        exact noOcc_suffix (a := [c]) hn
    exact key a ha
  have h1 : findObjectLocation unz (a ++ b!"startxref\n0\n" ++ b) n = .err := by
    unfold findObjectLocation
    rw [hs]
    rfl
  exact ⟨h1, by unfold Document.getObject; rw [h1]; rfl⟩

/-- C29 is violated by the stand-alone lookup in large files: the table reader looks at 10000 bytes only, so nothing
that an update appends later is seen. -/
theorem C29_window_violated (pdf post : Bytes) (start : Nat) (h : start + 10000 ≤ pdf.length) :
    XRefTable.parseTable (pdf ++ post) start = XRefTable.parseTable pdf start := by
  unfold XRefTable.parseTable
  have : ((pdf ++ post).drop start).take XRefTable.window = (pdf.drop start).take XRefTable.window := by
    rw [List.drop_append_of_le_length (by omega), List.take_append_of_le_length]
    unfold XRefTable.window
    simp; omega
  simp only [this]

/-! ### C30 -/

/-- C30 (partial: bodies that can be delimited by keywords, see `Spec.Delimitable`): the whole body is returned. -/
theorem C30_whole_body_partial (pdf : Bytes) (n : Int) (hn : (itoa n).length ≤ 40) (body : Bytes) (hb : Delimitable body)
    (off : Nat) (h : (itoa n ++ b!" 0 obj\n" ++ body ++ b!"\nendobj\n") <+: pdf.drop off) :
    getDirectObject none pdf n off = .ok (itoa n ++ b!" 0 obj\n" ++ body ++ b!"\nendobj") :=
  getDirect_at pdf n hn body (delimited_of hb) off h

/-- C30 is violated for every body that contains `endobj`, for instance in a string: only the part before it is
returned, whatever follows. -/
theorem C30_cut_at_endobj_violated (pdf : Bytes) (n : Int) (hn : (itoa n).length ≤ 40) (a rest : Bytes) (off : Nat)
    (hw : ∀ c, a.head? = some c → c ≠ 32 ∧ c ≠ 10 ∧ c ≠ 13 ∧ c ≠ 9) (hne : a ≠ [])
    (he : Absent b!"endobj" (a ++ b!"endob")) (hs : Absent b!"stream" a)
    (h : pdf.drop off = itoa n ++ b!" 0 obj\n" ++ a ++ b!"endobj" ++ rest) :
    getDirectObject none pdf n off =
      .ok (itoa n ++ b!" 0 obj\n" ++ a ++ (if a.getLast? = some 10 then [] else b!"\n") ++ b!"endobj") := by
  have hlt : off < pdf.length := by
    apply Classical.byContradiction
    intro hn
    rw [List.drop_of_length_le (by omega)] at h
    simp at h
  have hd : pdf.drop off = itoa n ++ b!" 0 obj" ++ (10 :: (a ++ b!"endobj" ++ rest)) := by
    rw [h]; simp [List.append_assoc]
  have he' := (absent_iff (by decide)).1 he
  have hno : NoOcc b!"endobj" ((itoa n ++ b!" 0 obj" ++ (10 :: a)) ++ b!"endob") := by
    have := noOcc_mid (pat := b!"endobj") (c := 10) (by decide) (a := itoa n ++ b!" 0 obj") (b := a ++ b!"endob") (by
      apply noOcc_of_head
      rw [List.mem_append, not_or]
      exact ⟨not_mem_itoa n (by decide) (by decide), by decide⟩) he'
    simpa [List.append_assoc] using this
  have hi : index b!"endobj" (itoa n ++ b!" 0 obj" ++ (10 :: (a ++ b!"endobj" ++ rest))) =
      some (itoa n ++ b!" 0 obj" ++ (10 :: a)).length := by
    have := index_at (pat := b!"endobj") (u := itoa n ++ b!" 0 obj" ++ (10 :: a)) (r := rest) (by decide) hno
    rw [← this]
    congr 1
    simp [List.append_assoc]
  have htake : (itoa n ++ b!" 0 obj" ++ (10 :: (a ++ b!"endobj" ++ rest))).take
      (itoa n ++ b!" 0 obj" ++ (10 :: a)).length = itoa n ++ b!" 0 obj" ++ (10 :: a) := by
    rw [show itoa n ++ b!" 0 obj" ++ (10 :: (a ++ b!"endobj" ++ rest)) =
      (itoa n ++ b!" 0 obj" ++ (10 :: a)) ++ (b!"endobj" ++ rest) by simp [List.append_assoc], List.take_left]
  have hobj : index b!"obj" (itoa n ++ b!" 0 obj" ++ (10 :: a)) = some ((itoa n).length + 3) := by
    rw [show itoa n ++ b!" 0 obj" ++ (10 :: a) = (itoa n ++ b!" 0 ") ++ (b!"obj" ++ (10 :: a)) by simp [List.append_assoc]]
    rw [index_skip (c := 111) (by
      rw [List.mem_append, not_or]
      exact ⟨not_mem_itoa n (by decide) (by decide), by decide⟩), index_here (List.prefix_append _ _)]
    simp
  have hdrop : (itoa n ++ b!" 0 obj" ++ (10 :: a)).drop ((itoa n).length + 3 + 3) = 10 :: a := by
    rw [List.append_assoc, List.drop_append, List.drop_of_length_le (by omega)]
    rw [show (itoa n).length + 3 + 3 - (itoa n).length = 6 by omega]
    rfl
  have hws : (10 :: a).dropWhile objWs = a := by
    cases a with
    | nil => exact absurd rfl hne
    | cons c a =>
      obtain ⟨g1, g2, g3, g4⟩ := hw c rfl
      rw [List.dropWhile_cons_of_pos (by decide), List.dropWhile_cons_of_neg (by simp [objWs, g1, g2, g3, g4])]
  unfold getDirectObject
  rw [if_neg (by omega), show (off : Int).toNat = off by omega]
  simp only [locate_here pdf n hn _ off hd]
  have hcontent : objContent none n 0 (itoa n ++ b!" 0 obj" ++ (10 :: (a ++ b!"endobj" ++ rest))) = .ok a := by
    unfold objContent
    rw [hi]
    simp only [Res.ofOption, Res.bind, htake, hobj, hdrop, hws, noOcc_iff_index.1 ((absent_iff (by decide)).1 hs)]
  rw [hcontent]
  simp only [Res.bind]
  congr 1
  have hsuf : (b!"\n").isSuffixOf a = true ↔ a.getLast? = some 10 := by
    rw [List.isSuffixOf_iff_suffix]
    constructor
    · rintro ⟨u, rfl⟩; simp
    · intro hl
      obtain ⟨u, hu⟩ := List.getLast?_eq_some_iff.1 hl
      exact ⟨u, hu.symm⟩
  have hz : natDec 0 = b!"0" := by decide
  by_cases hl : a.getLast? = some 10
  · rw [if_pos (hsuf.2 hl), if_pos hl, hz]
    simp [List.append_assoc]
  · rw [if_neg (fun hx => hl (hsuf.1 hx)), if_neg hl, hz]
    simp [List.append_assoc]

example : getDirectObject none b!"5 0 obj\n(say endobj twice)\nendobj\n" 5 0 = .ok b!"5 0 obj\n(say \nendobj" := by
  decide +kernel

/-- C30 is violated for streams: data containing `endobj` gives the wrong bytes, and near the end of the file a crash. -/
theorem C30_stream_violated :
    getDirectObject none b!"5 0 obj\n<</Length 9>>\nstream\nAAendobjB\nendstream\nendobj\n" 5 0 =
      .ok b!"5 0 obj\n<</Length 9>>\nstream\nAAendobjB\ne\nendobj" ∧
    getDirectObject none b!"5 0 obj\n<</Length 9>>\nstream\nAA endobj" 5 0 = .panic := by decide +kernel

example : Delimitable b!"<</Length 3 >>\nstream\nq Q\nendstream" :=
  ⟨(absent_iff (by decide)).2 (noOcc_iff_index.2 (by decide +kernel)), by decide,
    .inr ⟨b!"<</Length 3 >>\nstream\nq Q", by decide, (absent_iff (by decide)).2 (noOcc_iff_index.2 (by decide +kernel))⟩⟩

end Pdfer.Props
