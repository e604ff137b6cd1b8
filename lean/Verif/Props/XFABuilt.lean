import Verif.Props.XFA
import Verif.Proofs.XFARebuild

/-! C104 – C106: building, updating and rebuilding XFA files. -/

namespace Pdfer.Props

open Pdfer.Go Pdfer.XFA Pdfer.Spec Pdfer.Spec.XFA
open Pdfer.Forms (Val fmtV)

/-! ### C104: building and extraction -/

/-- C104 (partial: known stream names, no stream whose data would decompress once more, no `endstream` or `endobj` in a stream, one
`/AcroForm` and one `startxref` in the file): from the file that `BuildFromXFA` writes, `ExtractAllXFAStreams` gets every stream back with
its data, under the number of its place in the list, and no other stream. -/
theorem C104_extract_partial (src : Src) (env : Writer.Env) (hcr : env.crypt = none) (ss : List XStream) (hne : ss ≠ [])
    (hn : (ss.map (·.name)).Nodup) (hk : ∀ x ∈ ss, x.name ∈ Spec.XFA.streamNames) (hs : ∀ x ∈ ss, ∃ d, Storable env.z src.zip x d)
    (hfit : FitsAlone env (Writer.run env (buildOps ss)))
    (honce : ∀ i j, OccursAt b!"/AcroForm" (buildFromXFA env ss) i → OccursAt b!"/AcroForm" (buildFromXFA env ss) j → i = j) :
    ∃ m, extractAll src (buildFromXFA env ss) = .ok m ∧
      (∀ (i : Nat) (x : XStream), ss[i]? = some x → ∃ d, x.data = some d ∧ m.get x.name = some { data := d, num := (i : Int) + 1, compressed := false }) ∧
      ∀ k, k ∉ ss.map (·.name) → m.get k = none :=
  extract_built src env hcr ss hne hn hk hs hfit honce

/-- The streams of an extraction that survive: the conditions of C104 on the data. -/
structure Survives (z : Bytes → Bytes) (zip : Zip) (d : Bytes) : Prop where
  nonempty : d ≠ []
  inverse : zip.zlib (z d) = some d
  plain : zip.zlib d = none ∧ zip.flate d = none
  delimited : Absent b!"endstream" (z d) ∧ Absent b!"endobj" (z d)

theorem buildStreams_mem {m : Map Bytes Info} {x : XStream} : x ∈ buildStreams m ↔
    ∃ i, x.name ∈ taken ∧ m.get x.name = some i ∧ i.data ≠ [] ∧ x = { name := x.name, data := some i.data, compress := true } := by
  unfold buildStreams
  rw [List.mem_filterMap]
  constructor
  · rintro ⟨n, hn, h⟩
    rw [Option.bind_eq_some_iff] at h
    obtain ⟨i, hi, h⟩ := h
    split at h
    · simp at h
    · rename_i hd
      cases h
      exact ⟨i, hn, hi, hd, rfl⟩
  · rintro ⟨i, hn, hi, hd, hx⟩
    exact ⟨x.name, hn, by rw [hi]; simp only [Option.bind_some, if_neg hd]; rw [← hx]⟩

theorem buildStreams_names (m : Map Bytes Info) : ((buildStreams m).map (·.name)).Nodup := by
  have : ∀ l : List Bytes, l.Nodup → ((l.filterMap fun n => (m.get n).bind fun i => if i.data = [] then none else
      some ({ name := n, data := some i.data, compress := true } : XStream)).map (·.name)).Nodup := by
    intro l
    induction l with
    | nil => intro _; simp
    | cons n l ih =>
      intro hl
      rw [List.nodup_cons] at hl
      rw [List.filterMap_cons]
      split
      · exact ih hl.2
      · rename_i x hx
        rw [List.map_cons, List.nodup_cons]
        refine ⟨?_, ih hl.2⟩
        intro hm
        obtain ⟨y, hy, hyn⟩ := List.mem_map.1 hm
        obtain ⟨k, hk, h⟩ := List.mem_filterMap.1 hy
        have e1 : x.name = n := by
          rw [Option.bind_eq_some_iff] at hx
          obtain ⟨i, _, hx⟩ := hx
          split at hx
          · simp at hx
          · cases hx; rfl
        have e2 : y.name = k := by
          rw [Option.bind_eq_some_iff] at h
          obtain ⟨i, _, hx⟩ := h
          split at hx
          · simp at hx
          · cases hx; rfl
        apply hl.1
        rw [← e1, ← hyn, e2]
        exact hk
  exact this taken (by decide)

/-- C104 (partial, as above; the streams `signature` and `sourceSet` are lost): what `BuildPDFFromXFAStreams` writes is extracted again:
each of the seven streams it takes has its data, and there is no other. -/
theorem C104_roundtrip_partial (src : Src) (env : Writer.Env) (hcr : env.crypt = none) (m : Map Bytes Info)
    (hs : ∀ n ∈ Spec.XFA.builtNames, ∀ i, m.get n = some i → Survives env.z src.zip i.data) (hne : ∃ n ∈ Spec.XFA.builtNames, (m.get n).isSome)
    (hfit : FitsAlone env (Writer.run env (buildOps (buildStreams m))))
    (honce : ∀ i j, OccursAt b!"/AcroForm" (buildFromXFA env (buildStreams m)) i → OccursAt b!"/AcroForm" (buildFromXFA env (buildStreams m)) j → i = j) :
    ∃ m', extractAll src (buildFromXFA env (buildStreams m)) = .ok m' ∧
      (∀ n ∈ Spec.XFA.builtNames, (m'.get n).map (·.data) = (m.get n).map (·.data)) ∧ ∀ n, n ∉ Spec.XFA.builtNames → m'.get n = none := by
  have hne' : buildStreams m ≠ [] := by
    obtain ⟨n, hn, hi⟩ := hne
    obtain ⟨i, hi⟩ := Option.isSome_iff_exists.1 hi
    intro he
    have : ({ name := n, data := some i.data, compress := true } : XStream) ∈ buildStreams m :=
      buildStreams_mem.2 ⟨i, hn, hi, (hs n hn i hi).nonempty, rfl⟩
    rw [he] at this
    simp at this
  obtain ⟨m', h1, h2, h3⟩ := extract_built src env hcr (buildStreams m) hne' (buildStreams_names m)
    (by
      intro x hx
      obtain ⟨i, hn, _⟩ := buildStreams_mem.1 hx
      revert hn
      have : ∀ k ∈ taken, k ∈ known := by decide
      exact this x.name)
    (by
      intro x hx
      obtain ⟨i, hn, hi, hd, hx⟩ := buildStreams_mem.1 hx
      have s := hs _ hn i hi
      rw [hx]
      refine ⟨i.data, rfl, hd, fun _ => s.inverse, s.plain, ?_⟩
      simpa [Spec.XFA.stored] using s.delimited)
    hfit honce
  refine ⟨m', h1, ?_, ?_⟩
  · intro n hn
    cases hi : m.get n with
    | none =>
      rw [h3 n (by
        intro hm
        obtain ⟨x, hx, rfl⟩ := List.mem_map.1 hm
        obtain ⟨i, _, hi', _⟩ := buildStreams_mem.1 hx
        rw [hi] at hi'
        simp at hi')]
    | some i =>
      have hx : ({ name := n, data := some i.data, compress := true } : XStream) ∈ buildStreams m :=
        buildStreams_mem.2 ⟨i, hn, hi, (hs n hn i hi).nonempty, rfl⟩
      obtain ⟨k, hk⟩ := List.getElem?_of_mem hx
      obtain ⟨d, hd, hg⟩ := h2 k _ hk
      simp only [Option.some.injEq] at hd
      rw [hg, ← hd]
      rfl
  · intro n hn
    apply h3
    intro hm
    obtain ⟨x, hx, rfl⟩ := List.mem_map.1 hm
    obtain ⟨i, hn', _⟩ := buildStreams_mem.1 hx
    exact hn hn'

/-- C104: the signature and the source set are dropped without an error: with or without them the file is the same. -/
theorem C104_dropped_violated (env : Writer.Env) (m : Map Bytes Info) (i : Info) (n : Bytes) (hn : n = b!"signature" ∨ n = b!"sourceSet") :
    buildFromXFA env (buildStreams (m.set n i)) = buildFromXFA env (buildStreams m) ∧ n ∈ Spec.XFA.streamNames := by
  have : buildStreams (m.set n i) = buildStreams m := by
    unfold buildStreams
    apply List.filterMap_congr
    intro k hk
    rw [Map.get_set_ne]
    rintro rfl
    rcases hn with rfl | rfl <;> exact absurd hk (by decide)
  rw [this]
  exact ⟨rfl, by rcases hn with rfl | rfl <;> decide⟩

/-- A toy compression: a marker byte before the data. -/
def xfaZip : Zip := { zlib := fun s => match s with | 120 :: r => some r | _ => none, flate := fun _ => none, deflate := fun d => 121 :: d }

/-- The writer with the toy compression. -/
def xfaEnv : Writer.Env := { plainEnv with z := fun d => 120 :: d }

/-- The readers with the toy compression. -/
def xfaSrc : Src := { unz := xfaZip.zlib, xref := fun _ _ => none, zip := xfaZip }

/-- Two streams. -/
def exXfa : List XStream :=
  [{ name := b!"template", data := some b!"<t/>", compress := true },
   { name := b!"datasets", data := some b!"<data><field name=\"a\"><value>1</value></field></data>", compress := true }]

/-- The built file. -/
def exXfaFile : Bytes := buildFromXFA xfaEnv exXfa

theorem exXfa_once (pat : Bytes) (hp : pat ≠ []) (F : Bytes) (p : Nat) (key : ∀ i, i < F.length → pat.isPrefixOf (F.drop i) = true → i = p) :
    ∀ i j, OccursAt pat F i → OccursAt pat F j → i = j := by
  have lt : ∀ i, Spec.OccursAt pat F i → i = p := by
    intro i hi
    rw [Incremental.occursAt_iff hp] at hi
    apply key i
    · apply Classical.byContradiction; intro hn
      rw [List.drop_of_length_le (by omega)] at hi
      exact hp (List.prefix_nil.1 hi)
    · exact List.isPrefixOf_iff_prefix.2 hi
  intro i j hi hj
  rw [lt i hi, lt j hj]

theorem exXfa_fits : FitsAlone xfaEnv (Writer.run xfaEnv (buildOps exXfa)) := by
  have single : ∀ i j, OccursAt b!"startxref" (Writer.write xfaEnv (Writer.run xfaEnv (buildOps exXfa))).1 i →
      OccursAt b!"startxref" (Writer.write xfaEnv (Writer.run xfaEnv (buildOps exXfa))).1 j → i = j :=
    exXfa_once b!"startxref" (by decide) _ ((Writer.write xfaEnv (Writer.run xfaEnv (buildOps exXfa))).1.length - 20) (by decide +kernel)
  exact { fair := fun l => List.Perm.refl l, table := by decide +kernel, plain := by decide +kernel, size := by decide +kernel, next := by decide +kernel,
          once := fun i j _ _ => single i j, window := by decide +kernel, single := single, ending := by decide +kernel }

theorem exXfa_ok : exXfa ≠ [] ∧ (exXfa.map (·.name)).Nodup ∧ (∀ x ∈ exXfa, x.name ∈ known) ∧ (∀ x ∈ exXfa, ∃ d, Storable xfaEnv.z xfaSrc.zip x d) ∧
    (∀ i j, OccursAt b!"/AcroForm" (buildFromXFA xfaEnv exXfa) i → OccursAt b!"/AcroForm" (buildFromXFA xfaEnv exXfa) j → i = j) := by
  have abs : ∀ {p s : Bytes}, p ≠ [] → index p s = none → Absent p s := fun hp h => (Incremental.absent_iff hp).2 (noOcc_iff_index.2 h)
  refine ⟨by decide, by decide, by decide, ?_, ?_⟩
  · intro x hx
    simp only [exXfa, List.mem_cons, List.not_mem_nil, or_false] at hx
    rcases hx with rfl | rfl
    · exact ⟨_, rfl, by decide, fun _ => by decide, by decide, abs (by decide) (by decide), abs (by decide) (by decide)⟩
    · exact ⟨_, rfl, by decide, fun _ => by decide, by decide, abs (by decide) (by decide +kernel), abs (by decide) (by decide +kernel)⟩
  · exact exXfa_once b!"/AcroForm" (by decide) _ 341 (by decide +kernel)

/-! ### C105: updating the datasets in a file -/

/-- C105 (partial: the datasets stream is not compressed, neither longer than before nor with longer digits of its length, or without room
in the caller's array; the document is as in C102): `UpdateXFAInPDF` returns the file with the values of the form data in the datasets
stream and the new length of that stream, and every other byte as it was. -/
theorem C105_update_partial (src : Src) (f : StreamFile) (n : Int) (spare : Bytes) (a pre c : Bytes) (doc : List (XmlField × Bytes))
    (data : List (Bytes × Val)) (hd : FlatDoc pre doc) (hk : (data.map (·.1)).Nodup)
    (hm : ∀ d ∈ data, (34 : UInt8) ∉ d.1 ∧ (60 : UInt8) ∉ d.1 ∧ (60 : UInt8) ∉ fmtV d.2)
    (ha : Absent b!"<data" a) (hc : (60 : UInt8) ∉ c) (h1 : b!"<data" <+: pre ++ fieldsText doc) (h2 : b!"</data>" <:+ pre ++ fieldsText doc)
    (hx : findDatasets src (f.text n) = .ok (a ++ (pre ++ fieldsText doc) ++ c, n))
    (hz : src.zip.zlib (a ++ (pre ++ fieldsText doc) ++ c) = none ∧ src.zip.flate (a ++ (pre ++ fieldsText doc) ++ c) = none) (hw : f.WellFormed n)
    (hf : f.Fits n spare (a ++ (pre ++ fieldsText (updated doc (data.map fun e => (e.1, fmtV e.2)))) ++ c)) :
    ∃ arr, updateInPDF src (f.text n ++ spare) (f.text n).length data =
      .ok (f.replaced n (a ++ (pre ++ fieldsText (updated doc (data.map fun e => (e.1, fmtV e.2)))) ++ c), arr) := by
  have hu := C102_data_partial a pre c doc data hd hk hm ha hc h1 h2
  have hr := C103_replace_partial f n spare _ hw hf
  rw [Option.map_eq_some_iff] at hr
  obtain ⟨r, hr, hr1⟩ := hr
  refine ⟨r.2, ?_⟩
  unfold updateInPDF
  rw [List.take_left' rfl, hx]
  simp only [Res.bind, decompress, hz.1, hz.2, hu, hr, Res.ofOption, Bool.false_eq_true, if_false]
  rw [← hr1]

/-- A document without compression: the form of the example, with its first stream stored as it is. -/
def exDatasets : StreamFile :=
  { before := b!"%PDF-1.7\n", dict1 := b!"\n<<", length := 53, dict2 := b!">>\n", eol := b!"\n",
    data := b!"<data><field name=\"a\"><value>1</value></field></data>",
    rest := b!"\nendobj\n2 0 obj\n<</XFA[(datasets)1 0 R]>>\nendobj\n3 0 obj\n<</AcroForm 2 0 R>>\nendobj\nxref\n0 4\n0000000000 65535 f \n0000000009 00000 n \n0000000110 00000 n \n0000000151 00000 n \ntrailer\n<</Size 4/Root 3 0 R>>\nstartxref\n186\n%%EOF\n" }

/-- The one field of that document. -/
def exDatasetsDoc : List (XmlField × Bytes) := [({ name := b!"a", head := b!">", value := some b!"1", tail := [] }, b!"</data>")]

example : findDatasets xfaSrc (exDatasets.text 1) = .ok ([] ++ (b!"<data>" ++ fieldsText exDatasetsDoc) ++ [], 1) ∧
    exDatasets.Fits 1 b!"" ([] ++ (b!"<data>" ++ fieldsText (updated exDatasetsDoc [(b!"a", b!"7")])) ++ []) ∧
    xfaZip.zlib ([] ++ (b!"<data>" ++ fieldsText exDatasetsDoc) ++ []) = none := by
  refine ⟨by decide +kernel, ?_, by decide⟩
  unfold StreamFile.Fits
  decide +kernel

/-- C105: a compressed datasets stream (the one `BuildFromXFA` writes) is replaced by plain XML, while its dictionary still says
`/FlateDecode`: the decompressor named there rejects it. -/
theorem C105_filter_violated : ∃ r arr, updateInPDF xfaSrc exXfaFile exXfaFile.length [(b!"a", .str b!"23")] = .ok (r, arr) ∧
    contains r b!"2 0 obj\n<</Filter /FlateDecode /Length 54 /Type /EmbeddedFile >>\nstream\n<data><field name=\"a\"><value>23</value></field></data>endstream" = true ∧
    xfaZip.zlib b!"<data><field name=\"a\"><value>23</value></field></data>" = none := by
  refine ⟨match updateInPDF xfaSrc exXfaFile exXfaFile.length [(b!"a", .str b!"23")] with | .ok r => r.1 | _ => [],
    match updateInPDF xfaSrc exXfaFile exXfaFile.length [(b!"a", .str b!"23")] with | .ok r => r.2 | _ => [], ?_, ?_, ?_⟩ <;> decide +kernel

/-- C105: after an update with a shorter value the offset at the end of the file no longer leads to the cross-reference table. -/
theorem C105_offsets_violated : ∃ r arr, updateInPDF xfaSrc exXfaFile exXfaFile.length [(b!"a", .str [])] = .ok (r, arr) ∧
    (b!"xref").isPrefixOf (exXfaFile.drop 366) = true ∧ (b!"startxref\n366\n%%EOF\n").isSuffixOf r = true ∧ (b!"xref").isPrefixOf (r.drop 366) = false := by
  refine ⟨match updateInPDF xfaSrc exXfaFile exXfaFile.length [(b!"a", .str [])] with | .ok r => r.1 | _ => [],
    match updateInPDF xfaSrc exXfaFile exXfaFile.length [(b!"a", .str [])] with | .ok r => r.2 | _ => [], ?_, ?_, ?_, ?_⟩ <;> decide +kernel

/-- C105: with a value of twenty characters the end of the stream and of its object are overwritten, and extracting the streams of the
result crashes. -/
theorem C105_longer_violated : ∃ r arr, updateInPDF xfaSrc exXfaFile exXfaFile.length [(b!"a", .str b!"12345678901234567890")] = .ok (r, arr) ∧
    contains r b!"<value>12345678901234567890</value></field></data>e></field></data>3 0 obj" = true ∧ extractAll xfaSrc r = .panic := by
  refine ⟨match updateInPDF xfaSrc exXfaFile exXfaFile.length [(b!"a", .str b!"12345678901234567890")] with | .ok r => r.1 | _ => [],
    match updateInPDF xfaSrc exXfaFile exXfaFile.length [(b!"a", .str b!"12345678901234567890")] with | .ok r => r.2 | _ => [], ?_, ?_, ?_⟩ <;> decide +kernel

/-! ### C106: rebuilding a file with new streams -/

theorem replaceData_get (z : Bytes → Bytes) (names : Map Bytes Int) (n : Int) (m : Map Int RObj) (u : Bytes × Bytes) (h : names.get u.1 ≠ some n) :
    (replaceData z names m u).get n = m.get n := by
  unfold replaceData
  split
  · rfl
  · rename_i k hk
    split
    · rfl
    · exact Map.get_set_ne _ _ (by rintro rfl; exact h hk)

theorem foldl_replace_get (z : Bytes → Bytes) (names : Map Bytes Int) (n : Int) : ∀ (us : List (Bytes × Bytes)) (m : Map Int RObj),
    (∀ u ∈ us, names.get u.1 ≠ some n) → (us.foldl (replaceData z names) m).get n = m.get n
  | [], _, _ => rfl
  | u :: us, m, h => by
    rw [List.foldl_cons, foldl_replace_get z names n us _ fun v hv => h v (by simp [hv]), replaceData_get z names n m u (h u (by simp))]

theorem foldl_replace_nodup (z : Bytes → Bytes) (names : Map Bytes Int) : ∀ (us : List (Bytes × Bytes)) (m : Map Int RObj),
    m.keys.Nodup → (us.foldl (replaceData z names) m).keys.Nodup
  | [], _, h => h
  | u :: us, m, h => by
    rw [List.foldl_cons]
    apply foldl_replace_nodup
    unfold replaceData
    split
    · exact h
    · split
      · exact h
      · exact Map.nodup_set _ _ _ h

/-- The updates `RebuildPDFFromXFAStreams` makes. -/
theorem updates_mem {m : Map Bytes Info} {u : Bytes × Bytes}
    (h : u ∈ known.filterMap fun n => (m.get n).bind fun i => if i.data = [] then none else some (n, i.data)) :
    u.1 ∈ known ∧ ∃ i, m.get u.1 = some i ∧ i.data = u.2 ∧ u.2 ≠ [] := by
  obtain ⟨n, hn, h⟩ := List.mem_filterMap.1 h
  rw [Option.bind_eq_some_iff] at h
  obtain ⟨i, hi, h⟩ := h
  split at h
  · simp at h
  · rename_i hd
    cases h
    exact ⟨hn, i, hi, rfl, hd⟩

/-- C106 (partial: objects that are not streams and not in object streams): an object of the file that is no stream, and is not named as an
XFA stream, is in the rebuilt file with its text. -/
theorem C106_kept_partial (unz : Bytes → Option Bytes) (env : Writer.Env) (hc : env.crypt = none) (hf : FairOrder env) (pdf out : Bytes)
    (m : Map Bytes Info) (n : Nat) (before body rest : Bytes) (hl : LastObject pdf n before body rest) (hs : Absent b!"stream" body)
    (hb : trimSpace body ≠ []) (hx : ∀ names, xfaMap unz pdf = .ok names → ∀ k, names.get k ≠ some (n : Int))
    (h : rebuildStreams unz env pdf m = .ok out) : (natDec n ++ b!" 0 obj\n" ++ trimSpace body ++ b!"\nendobj\n") <:+: out := by
  unfold rebuildStreams at h
  obtain ⟨m0, names, h1, h2, _, _, h3⟩ := rebuild_texts unz env hc hf pdf out _ h
  obtain ⟨hnd, o, ho, hg⟩ := found_object unz hl h1
  have hnames : ∀ k, names.get k ≠ some (n : Int) := by
    rcases h2 with h2 | ⟨_, rfl⟩
    · exact hx names h2
    · intro k; simp [Map.get]
  have hg' := (foldl_replace_get env.z names n (known.filterMap fun n => (m.get n).bind fun i => if i.data = [] then none else some (n, i.data)) m0
    (fun u _ => hnames u.1)).trans hg
  have hmem := (Map.get_eq_some_iff _ (foldl_replace_nodup env.z names _ m0 hnd) _ _).1 hg'
  have hobj : o = { content := trimSpace body, stream := none, dict := [] } := by
    have hi : index b!"endobj" (body ++ b!"endobj" ++ rest) = some body.length := by
      rw [List.append_assoc]
      exact Manipulate.index_first (by decide) ((Incremental.absent_iff (by decide)).1 hl.noEnd)
    have hi2 : index b!"stream" body = none := noOcc_iff_index.1 ((Incremental.absent_iff (by decide)).1 hs)
    unfold rebuildObj at ho
    rw [hi] at ho
    have ht : (body ++ b!"endobj" ++ rest).take body.length = body := by rw [List.append_assoc]; exact List.take_left' rfl
    simp only [ht, hi2] at ho
    injection ho with ho
    injection ho with ho
    exact ho.symm
  have := (h3 hnd n o hmem).2 (by rw [hobj]) (by rw [hobj]; exact hb)
  rw [hobj] at this
  exact this

/-- C106 (partial: the stream object is not in an object stream and no other stream of the update has the same number): a stream given to
the rebuilding, and named in the XFA array of the file, is in the rebuilt file under its number, compressed, with the filter and the length
in its dictionary. -/
theorem C106_updated_partial (unz : Bytes → Option Bytes) (env : Writer.Env) (hc : env.crypt = none) (hf : FairOrder env) (pdf out : Bytes)
    (m : Map Bytes Info) (n : Nat) (before body rest : Bytes) (hl : LastObject pdf n before body rest) (names : Map Bytes Int)
    (hx : xfaMap unz pdf = .ok names) (name : Bytes) (i : Info) (hk : name ∈ Spec.XFA.streamNames) (hi : m.get name = some i) (hd : i.data ≠ [])
    (hn : names.get name = some (n : Int)) (hinj : ∀ k, names.get k = some (n : Int) → k = name)
    (h : rebuildStreams unz env pdf m = .ok out) :
    ∃ d : Writer.Dict, d.get b!"Filter" = some (.str b!"/FlateDecode") ∧ d.get b!"Length" = some (.int (env.z i.data).length) ∧
      (natDec n ++ b!" 0 obj\n" ++ Writer.formatDictionary d ++ b!"\nstream\n" ++ env.z i.data ++ b!"\nendstream\nendobj\n") <:+: out := by
  unfold rebuildStreams at h
  obtain ⟨m0, names', h1, h2, _, _, h3⟩ := rebuild_texts unz env hc hf pdf out _ h
  have hnm : names' = names := by
    rcases h2 with h2 | ⟨h2, _⟩
    · rw [hx] at h2; cases h2; rfl
    · rw [hx] at h2; simp at h2
  subst hnm
  obtain ⟨hnd, o, ho, hg⟩ := found_object unz hl h1
  -- after the updates
  have key : ∀ (us : List (Bytes × Bytes)) (m1 : Map Int RObj) (o1 : RObj), (∀ u ∈ us, u.1 = name → u.2 = i.data) → m1.get (n : Int) = some o1 →
      (name ∈ us.map (·.1) ∨ (o1.stream = some (env.z i.data) ∧ o1.dict.get b!"Filter" = some (.str b!"/FlateDecode"))) →
      ∃ o2, (us.foldl (replaceData env.z names') m1).get (n : Int) = some o2 ∧ o2.stream = some (env.z i.data) ∧
        o2.dict.get b!"Filter" = some (.str b!"/FlateDecode") := by
    intro us
    induction us with
    | nil =>
      intro m1 o1 _ hg1 hor
      rcases hor with hor | hor
      · simp at hor
      · exact ⟨o1, hg1, hor⟩
    | cons u us ih =>
      intro m1 o1 hu hg1 hor
      rw [List.foldl_cons]
      by_cases hun : u.1 = name
      · have hd2 := hu u (by simp) hun
        have : (replaceData env.z names' m1 u).get (n : Int) = some { o1 with stream := some (env.z u.2), dict := (o1.dict.set b!"Filter" (.str b!"/FlateDecode")).set b!"Length" (.int (env.z u.2).length) } := by
          unfold replaceData
          simp only [hun, hn, hg1]
          exact Map.get_set_eq _ _ _
        refine ih _ _ (fun v hv => hu v (by simp [hv])) this (.inr ⟨by rw [hd2], ?_⟩)
        rw [Map.get_set_ne _ _ (by decide)]
        exact Map.get_set_eq _ _ _
      · have : (replaceData env.z names' m1 u).get (n : Int) = some o1 := by
          rw [replaceData_get _ _ _ _ _ (fun he => hun (hinj _ he))]
          exact hg1
        refine ih _ _ (fun v hv => hu v (by simp [hv])) this ?_
        rcases hor with hor | hor
        · rw [List.map_cons, List.mem_cons] at hor
          exact .inl (hor.resolve_left fun h => hun h.symm)
        · exact .inr hor
  obtain ⟨o2, g1, g2, g3⟩ := key _ m0 o (by
      intro u hu hun
      obtain ⟨_, j, hj, hj2, _⟩ := updates_mem hu
      rw [hun, hi] at hj
      cases hj
      exact hj2.symm) hg (.inl (List.mem_map.2 ⟨(name, i.data), List.mem_filterMap.2 ⟨name, hk, by rw [hi]; simp only [Option.bind_some, if_neg hd]⟩, rfl⟩))
  have hmem := (Map.get_eq_some_iff _ (foldl_replace_nodup env.z names' _ m0 hnd) _ _).1 g1
  refine ⟨o2.dict.set b!"Length" (.int (env.z i.data).length), ?_, Map.get_set_eq _ _ _, (h3 hnd n o2 hmem).1 _ g2⟩
  rw [Map.get_set_ne _ _ (by decide)]
  exact g3

/-- C106 (partial: the first `/Root` of the file is the one of its trailer): the rebuilt file has the catalog of the original. -/
theorem C106_root_partial (unz : Bytes → Option Bytes) (env : Writer.Env) (hc : env.crypt = none) (hf : FairOrder env) (a b out : Bytes)
    (m : Map Bytes Info) (n : Nat) (hn : n ≤ 9223372036854775807) (h0 : 0 < n) (ha : Absent b!"/Root" a)
    (h : rebuildStreams unz env (a ++ (b!"/Root " ++ natDec n ++ b!" 0 R" ++ b)) m = .ok out) : (b!"\n/Root " ++ natDec n ++ b!" 0 R\n") <:+: out := by
  unfold rebuildStreams at h
  obtain ⟨_, _, _, _, h2, _, _⟩ := rebuild_texts unz env hc hf _ out _ h
  have hr : trailerRef b!"/Root" (a ++ (b!"/Root " ++ natDec n ++ b!" 0 R" ++ b)) = n := by
    unfold trailerRef
    have hp : ∀ s : Bytes, ((reLit b!"/Root" s).bind fun r => (reSp1 r).bind fun r => (reNum r).bind fun p => (reSp1 p.2).bind fun r =>
        (reNum r).bind fun q => (reSp1 q.2).bind fun r => (reLit b!"R" r).map fun _ => p.1) ≠ none → b!"/Root" <+: s := by
      intro s hs
      cases he : reLit b!"/Root" s with
      | none => rw [he] at hs; exact absurd rfl hs
      | some r => exact ⟨r, (Manipulate.reLit_some he).symm⟩
    rw [Manipulate.searchWith_first (c := 47) (k := b!"Root") hp (by intro d hd; simp at hd; subst hd; decide) ((Incremental.absent_iff (by decide)).1 ha)]
    rw [searchWith_here (a := natDec n)]
    · simp [atoiClamp_natDec n hn]
    · have h1 : reSp1 (32 :: (natDec n ++ (b!" 0 R" ++ b))) = some (natDec n ++ (b!" 0 R" ++ b)) :=
        reSp1_one fun c hc => isDigit_not_reSpace (natDec_head n _ c hc)
      have h2 : reNum (natDec n ++ (b!" 0 R" ++ b)) = some (natDec n, b!" 0 R" ++ b) := reNum_natDec (by intro c hc; simp at hc; subst hc; decide)
      have h3 : reSp1 (b!" 0 R" ++ b) = some (b!"0 R" ++ b) := reSp1_one (by intro c hc; simp at hc; subst hc; decide)
      have h4 : reNum (b!"0 R" ++ b) = some (b!"0", b!" R" ++ b) := reNum_natDec (n := 0) (by intro c hc; simp at hc; subst hc; decide)
      have h5 : reSp1 (b!" R" ++ b) = some (b!"R" ++ b) := reSp1_one (by intro c hc; simp at hc; subst hc; decide)
      have e : b!"/Root " ++ natDec n ++ b!" 0 R" ++ b = b!"/Root" ++ (32 :: (natDec n ++ (b!" 0 R" ++ b))) := by simp
      rw [e, reLit_append]
      simp only [Option.bind_some, h1, h2, h3, h4, h5, reLit_append, Option.map_some]
  rw [hr] at h2
  exact h2 (by omega)

/-- The built file of the example with 500 bytes of comment after it. -/
def exXfaPadded : Bytes := exXfaFile ++ List.replicate 500 37

/-- A new datasets stream. -/
def exXfaUpdate : Map Bytes Info := [(b!"datasets", { data := b!"<new/>", num := 2, compressed := false })]

/-- The result of rebuilding the padded file. -/
def exXfaRebuilt : Bytes := match rebuildStreams xfaZip.zlib xfaEnv exXfaPadded exXfaUpdate with | .ok r => r | _ => []

theorem exXfaRebuilt_ok : rebuildStreams xfaZip.zlib xfaEnv exXfaPadded exXfaUpdate = .ok exXfaRebuilt := by decide +kernel

/-- The text between the header and the `endobj` of object 4 of the padded file, and what follows. -/
def exXfaTail : Bytes := b!"\n<</Type/Catalog/AcroForm 3 0 R>>\n" ++ b!"endobj" ++ exXfaPadded.drop 365

theorem exXfaPadded_object : LastObject exXfaPadded 4 (exXfaPadded.take 318) b!"\n<</Type/Catalog/AcroForm 3 0 R>>\n" (exXfaPadded.drop 365) := by
  have abs : ∀ {p s : Bytes}, p ≠ [] → index p s = none → Absent p s := fun hp h => (Incremental.absent_iff hp).2 (noOcc_iff_index.2 h)
  refine ⟨by decide +kernel, by decide, by decide +kernel, abs (by decide) (by decide +kernel), ?_⟩
  intro x y h hxy ⟨ds, w1, g, w2, h1, h2, h3, h4, h5, h6, h7, h8, h9, hh⟩ hp
  obtain ⟨t, ht⟩ := hp
  rw [← ht, hh] at hxy
  have key : ∀ i, i < exXfaTail.length → (b!"obj").isPrefixOf (exXfaTail.drop i) = true → (exXfaTail.take i).getLast? = some 100 := by decide +kernel
  have e : exXfaTail = (x ++ (ds ++ w1 ++ g ++ w2)) ++ (b!"obj" ++ t) := by unfold exXfaTail; rw [hxy]; simp
  have hlt : (x ++ (ds ++ w1 ++ g ++ w2)).length < exXfaTail.length := by rw [e]; simp [List.length_append]
  have := key _ hlt (by rw [e, List.drop_left' rfl]; simp [List.isPrefixOf])
  rw [e, List.take_left' rfl, ← List.append_assoc, List.getLast?_append] at this
  cases hw : w2.getLast? with
  | none => exact h7 (List.getLast?_eq_none_iff.1 hw)
  | some c =>
    rw [hw] at this
    simp at this
    subst this
    exact absurd (h8 _ (List.mem_of_getLast? hw)) (by unfold Manipulate.White; decide)

example : trimSpace b!"\n<</Type/Catalog/AcroForm 3 0 R>>\n" = b!"<</Type/Catalog/AcroForm 3 0 R>>" ∧ xfaMap xfaZip.zlib exXfaPadded = .ok [(b!"datasets", 2), (b!"template", 1)] ∧
    contains exXfaRebuilt b!"4 0 obj\n<</Type/Catalog/AcroForm 3 0 R>>\nendobj\n" = true ∧ contains exXfaRebuilt b!"\n/Root 4 0 R\n" = true ∧
    contains exXfaRebuilt b!"2 0 obj\n<</EmbeddedFile () /Filter /FlateDecode /FlateDecode () /Length 7 /Type () >>\nstream\nx<new/>\nendstream\nendobj\n" = true := by
  refine ⟨?_, ?_, ?_, ?_, ?_⟩ <;> decide +kernel

/-- C106: rebuilding the very file that `BuildFromXFA` wrote crashes (in a slice without 500 bytes of room after its cross-reference table,
such as one read from a file). -/
theorem C106_crash_violated : rebuildStreams xfaZip.zlib xfaEnv exXfaFile exXfaUpdate = .panic := by decide +kernel

/-- C106: a form whose XFA array is not closed crashes the rebuilding. -/
theorem C106_bracket_violated : xfaMapOf b!"1 0 obj\n<</XFA[(datasets)1 0 R>>\nendobj" = .panic := by decide +kernel

/-- C106: the dictionaries of streams do not survive: the names that are values become keys, and a stream that is not updated loses its
filter and its type. -/
theorem C106_dictionary_violated : contains exXfaPadded b!"1 0 obj\n<</Filter /FlateDecode /Length 5 /Type /EmbeddedFile >>\nstream\nx<t/>\nendstream\nendobj\n" = true ∧
    contains exXfaRebuilt b!"1 0 obj\n<</EmbeddedFile () /Filter () /FlateDecode () /Length 5 /Type () >>\nstream\nx<t/>\nendstream\nendobj\n" = true := by
  constructor <;> decide +kernel

/-- C106: an update of a stream that the form does not name is dropped without an error. -/
theorem C106_ignored_violated (unz : Bytes → Option Bytes) (env : Writer.Env) (pdf : Bytes) (n : Bytes) (i : Info)
    (hx : ∀ names, xfaMap unz pdf = .ok names → names.get n = none) : rebuildStreams unz env pdf [(n, i)] = rebuildStreams unz env pdf [] := by
  have key : ∀ us : List (Bytes × Bytes), (∀ u ∈ us, u.1 = n) → rebuild unz env pdf us = rebuild unz env pdf [] := by
    intro us hu
    have hf : ∀ (names : Map Bytes Int), names.get n = none → ∀ m : Map Int RObj, us.foldl (replaceData env.z names) m = m := by
      intro names hn
      clear hx
      induction us with
      | nil => exact fun _ => rfl
      | cons u us ih =>
        intro m
        have : replaceData env.z names m u = m := by
          unfold replaceData
          rw [hu u (by simp), hn]
        rw [List.foldl_cons, this]
        exact ih (fun v hv => hu v (by simp [hv])) m
    unfold rebuild
    cases allObjects unz pdf with
    | panic => rfl
    | err => rfl
    | ok m =>
      simp only [Res.bind]
      cases hxm : xfaMap unz pdf with
      | panic => rfl
      | err => simp only [hf [] rfl, List.foldl_nil]
      | ok names => simp only [hf names (hx names hxm), List.foldl_nil]
  unfold rebuildStreams
  rw [key _ (by
    intro u hu
    obtain ⟨_, j, hj, _⟩ := updates_mem hu
    simp only [Map.get] at hj
    apply Classical.byContradiction
    intro hne
    have hd : decide (n = u.1) = false := decide_eq_false fun h => hne h.symm
    simp [List.find?, hd] at hj)]
  rfl

example : (∀ names, xfaMap xfaZip.zlib exXfaPadded = .ok names → names.get b!"config" = none) := by
  intro names h
  have : xfaMap xfaZip.zlib exXfaPadded = .ok [(b!"datasets", 2), (b!"template", 1)] := by decide +kernel
  rw [this] at h
  cases h
  decide

end Pdfer.Props
