import Verif.Spec.Collect
import Verif.Proofs.GoLib
import Verif.Props.Filters

/-! C156: what `ExtractContent` collects. C157: `DecodeFilter` by name. -/

namespace Pdfer.Props

open Pdfer.Go Pdfer.Extract Pdfer.Spec.Collect

/-! ### C156 -/

/-- Adding entries that are not yet there. -/
def addNew {V : Type} (m : Map Bytes V) (es : List (Bytes × V)) : Map Bytes V :=
  es.foldl (fun m e => if (m.get e.1).isSome then m else m.set e.1 e.2) m

theorem addNew_nodup {V : Type} (es : List (Bytes × V)) : ∀ m : Map Bytes V, m.keys.Nodup → (addNew m es).keys.Nodup := by
  induction es with
  | nil => intro m h; exact h
  | cons e es ih =>
    intro m h
    rw [addNew, List.foldl_cons]
    apply ih
    split
    · exact h
    · exact Map.nodup_set _ _ _ h

theorem addNew_get {V : Type} (es : List (Bytes × V)) : ∀ (m : Map Bytes V) (k : Bytes),
    (addNew m es).get k = (m.get k).or (Map.get es k) := by
  show ∀ (m : Map Bytes V) (k : Bytes), (addNew m es).get k = (m.get k).or ((es.find? fun e => e.1 = k).map (·.2))
  induction es with
  | nil => intro m k; simp [addNew]
  | cons e es ih =>
    intro m k
    rw [addNew, List.foldl_cons]
    have := ih (if (m.get e.1).isSome then m else m.set e.1 e.2) k
    rw [addNew] at this
    rw [this]
    by_cases hk : e.1 = k
    · subst hk
      rw [List.find?_cons_of_pos (by simp)]
      split
      · rename_i h
        obtain ⟨v, hv⟩ := Option.isSome_iff_exists.1 h
        rw [hv]; simp
      · rename_i h
        rw [Map.get_set_eq]
        have : m.get e.1 = none := by simpa using h
        rw [this]; simp
    · rw [List.find?_cons_of_neg (by simpa using hk)]
      split
      · rfl
      · rw [Map.get_set_ne _ _ (fun h => hk h.symm)]

theorem collect_nodup {V : Type} (ord : Nat → Map Bytes V → List (Bytes × V)) (l : List (Map Bytes V × Nat)) : ∀ m : Map Bytes V, m.keys.Nodup →
    (l.foldl (fun m p => addNew m (ord p.2 p.1)) m).keys.Nodup := by
  induction l with
  | nil => intro m h; exact h
  | cons e l ih => intro m h; rw [List.foldl_cons]; exact ih _ (addNew_nodup _ _ h)

theorem collect_get {V : Type} (ord : Nat → Map Bytes V → List (Bytes × V)) (ho : ∀ i, Walks (ord i)) (k : Bytes) (l : List (Map Bytes V × Nat)) :
    (∀ p ∈ l, p.1.keys.Nodup) → ∀ m : Map Bytes V,
      (l.foldl (fun m p => addNew m (ord p.2 p.1)) m).get k = (m.get k).or (l.findSome? fun p => p.1.get k) := by
  induction l with
  | nil => intro _ m; simp
  | cons e l ih =>
    intro hn m
    rw [List.foldl_cons, ih (fun p hp => hn p (by simp [hp])), addNew_get, Option.or_assoc, List.findSome?_cons]
    have : Map.get (ord e.2 e.1) k = e.1.get k :=
      (Map.get_perm _ _ (ho e.2 e.1).symm (hn e (by simp)) k).symm
    rw [this]
    cases e.1.get k <;> simp

theorem findSome_zipIdx {V : Type} (k : Bytes) (ms : List (Map Bytes V)) : ∀ i, ((ms.zipIdx i).findSome? fun p => p.1.get k) = ms.findSome? (·.get k) := by
  induction ms with
  | nil => intro i; rfl
  | cons m ms ih => intro i; rw [List.zipIdx_cons, List.findSome?_cons, List.findSome?_cons, ih]

theorem firstHas_iff {V : Type} (ms : List (Map Bytes V)) (hn : ∀ m ∈ ms, m.keys.Nodup) (k : Bytes) (v : V) :
    ms.findSome? (·.get k) = some v ↔ FirstHas ms k v := by
  rw [List.findSome?_eq_some_iff]
  unfold FirstHas
  constructor
  · rintro ⟨l1, a, l2, rfl, h1, h2⟩
    refine ⟨l1, a, l2, rfl, (Map.get_eq_some_iff _ (hn a (by simp)) _ _).1 h1, ?_⟩
    intro q hq u hu
    rw [← Map.get_eq_some_iff _ (hn q (by simp [hq])), h2 q hq] at hu
    simp at hu
  · rintro ⟨l1, a, l2, rfl, h1, h2⟩
    refine ⟨l1, a, l2, rfl, (Map.get_eq_some_iff _ (hn a (by simp)) _ _).2 h1, ?_⟩
    intro q hq
    cases hg : q.get k with
    | none => rfl
    | some u => exact absurd ((Map.get_eq_some_iff _ (hn q (by simp [hq])) _ _).1 hg) (h2 q hq u)

theorem collect_each {V : Type} (ord : Nat → Map Bytes V → List (Bytes × V)) (ho : ∀ i, Walks (ord i)) (last : Map Bytes V → List (Bytes × V))
    (hl : Walks last) (ms : List (Map Bytes V)) (hn : ∀ m ∈ ms, m.keys.Nodup) : OneOfEach ms ((last (firstOf ord ms)).map (·.2)) := by
  have hz : ∀ p ∈ ms.zipIdx, p.1.keys.Nodup := by
    intro p hp
    exact hn _ (List.fst_mem_of_mem_zipIdx hp)
  have hnd : (firstOf ord ms).keys.Nodup := collect_nodup ord ms.zipIdx [] (by simp [Map.keys])
  refine ⟨last (firstOf ord ms), rfl, ((hl _).map Prod.fst).nodup_iff.2 hnd, ?_⟩
  intro k v
  rw [(hl _).mem_iff, ← Map.get_eq_some_iff _ hnd, ← firstHas_iff ms hn]
  have := collect_get ord ho k ms.zipIdx hz []
  rw [findSome_zipIdx] at this
  rw [show (firstOf ord ms).get k = _ from this]
  simp [Map.get]

/-- C156: `ExtractContent` succeeds exactly when the pages can be extracted; the document has these pages, whatever happened to the metadata and the
bookmarks, and the annotations are those of the pages, in the order of the pages. -/
theorem C156_pages {F M B : Type} (o : Orders) (md : Option M) (pages : Res (List (XPage F))) (marks : Option (List B)) :
    (∀ ps, pages = .ok ps → ∃ d, extractContent o md pages marks = .ok d ∧ d.pages = ps ∧ d.metadata = md ∧ (∀ bs, marks = some bs → d.bookmarks = bs) ∧
      d.annots = (ps.map (·.annots)).flatten) ∧
    (pages = .err → extractContent o md pages marks = .err) := by
  refine ⟨?_, ?_⟩
  · rintro ps rfl
    exact ⟨_, rfl, rfl, rfl, by rintro bs rfl; rfl, List.flatMap_def ..⟩
  · rintro rfl; rfl

/-- C156: the images and the fonts of the document are one for each name that occurs in the resources of a page – that of the first page that has it –
in whatever orders Go walks its maps.

Partial: names belong to a page, so two pages may give the same name to different images, and then all but the first are missing
(`C156_lost_violated`). -/
theorem C156_each_partial {F M B : Type} (o : Orders) (h1 : ∀ i, Walks (o.imagesOf i)) (h2 : Walks o.images) (h3 : ∀ i, Walks (o.fontsOf i))
    (h4 : Walks o.fonts) (md : Option M) (ps : List (XPage F)) (marks : Option (List B))
    (hn : ∀ p ∈ ps, ∀ r, p.resources = some r → r.images.keys.Nodup ∧ r.fonts.keys.Nodup) :
    ∃ d, extractContent o md (.ok ps) marks = .ok d ∧ OneOfEach (ps.map imagesOf) d.images ∧ OneOfEach (ps.map fontsOf) d.fonts := by
  refine ⟨_, rfl, ?_, ?_⟩
  · refine collect_each _ h1 _ h2 _ ?_
    intro m hm
    obtain ⟨p, hp, rfl⟩ := List.mem_map.1 hm
    unfold imagesOf
    cases hr : p.resources with
    | none => simp [Map.keys]
    | some r => exact (hn p hp r hr).1
  · refine collect_each _ h3 _ h4 _ ?_
    intro m hm
    obtain ⟨p, hp, rfl⟩ := List.mem_map.1 hm
    unfold Spec.Collect.fontsOf
    cases hr : p.resources with
    | none => simp [Map.keys]
    | some r => exact (hn p hp r hr).2

/-- A page with nothing but images. -/
def imagePage (images : Map Bytes Image) : XPage Nat :=
  { mediaBox := none, width := 612, height := 792, cropBox := none, rotation := 0, resources := some { fonts := [], images := images, xobjects := [] },
    texts := [], graphics := [], images := [], annots := [] }

/-- C156 is violated: of two pages that both call an image `name`, the image of the second is not in the document, whatever it is. -/
theorem C156_lost_violated (o : Orders) (h1 : ∀ i, Walks (o.imagesOf i)) (h2 : Walks o.images) (name : Bytes) (a b : Image) :
    ∃ d : ContentDoc Nat Unit Unit, extractContent o none (.ok [imagePage [(name, a)], imagePage [(name, b)]]) none = .ok d ∧ d.images = [a] := by
  refine ⟨_, rfl, ?_⟩
  have p1 : ∀ i x, o.imagesOf i [(name, x)] = [(name, x)] := fun i x => List.perm_singleton.1 (h1 i _)
  have hf : firstOf o.imagesOf [[(name, a)], [(name, b)]] = [(name, a)] := by
    simp [firstOf, p1, Map.get, Map.set]
  show (o.images (firstOf o.imagesOf [[(name, a)], [(name, b)]])).map (·.2) = [a]
  rw [hf, List.perm_singleton.1 (h2 _)]
  rfl

/-- Three pages; the image `Im1` of the third page is not that of the first. -/
def threePages (x y z : Image) : List (XPage Nat) :=
  [imagePage [(b!"Im1", x), (b!"Im2", y)], imagePage [], imagePage [(b!"Im3", z), (b!"Im1", z)]]

/-- The hypotheses of `C156_each_partial` are met by orders that are not those of insertion. -/
example (x y z : Image) : ∃ d : ContentDoc Nat Unit Unit,
    extractContent ⟨fun _ m => m.reverse, fun _ m => m, List.reverse, id⟩ none (.ok (threePages x y z)) none = .ok d ∧ d.images = [y, x, z] :=
  ⟨_, rfl, rfl⟩

example (x y z : Image) : ∃ d : ContentDoc Nat Unit Unit,
    extractContent ⟨fun _ m => m.reverse, fun _ m => m, List.reverse, id⟩ none (.ok (threePages x y z)) none = .ok d ∧
      OneOfEach ((threePages x y z).map imagesOf) d.images ∧ OneOfEach ((threePages x y z).map fontsOf) d.fonts :=
  C156_each_partial _ (fun _ m => m.reverse_perm) (fun m => m.reverse_perm) (fun _ _ => .refl _) (fun _ => .refl _) none _ none (by
    intro p hp r hr
    simp only [threePages, List.mem_cons, List.not_mem_nil, or_false] at hp
    rcases hp with rfl | rfl | rfl <;> (simp only [imagePage, Option.some.injEq] at hr; subst hr; simp [Map.keys]; try decide))

/-! ### C157 -/

open Pdfer.Filters

/-- C157: what an encoder of the library wrote, `DecodeFilter` reads under the name of the filter, with or without the slash. -/
theorem C157_roundtrip (flate : Bytes → Option Bytes) (data : Bytes) :
    (∀ n ∈ [b!"ASCIIHexDecode", b!"/ASCIIHexDecode"], decodeFilter flate (encodeASCIIHex data) n = some data) ∧
    (∀ n ∈ [b!"ASCII85Decode", b!"/ASCII85Decode"], decodeFilter flate (encodeASCII85 data) n = some data) ∧
    (∀ n ∈ [b!"RunLengthDecode", b!"/RunLengthDecode"], decodeFilter flate (encodeRunLength data) n = some data) ∧
    (∀ deflated, flate deflated = some data → ∀ n ∈ [b!"FlateDecode", b!"/FlateDecode"], decodeFilter flate deflated n = some data) ∧
    (∀ jpeg, encodeDCT data = some jpeg → ∀ n ∈ [b!"DCTDecode", b!"/DCTDecode"], decodeFilter flate jpeg n = some data) := by
  have h1 := C01_asciihex_roundtrip data
  have h2 := C02_ascii85_roundtrip data
  have h3 := C03_runlength_roundtrip data
  refine ⟨?_, ?_, ?_, ?_, ?_⟩
  · intro n hn
    simp only [List.mem_cons, List.not_mem_nil, or_false] at hn
    rcases hn with rfl | rfl <;> exact h1
  · intro n hn
    simp only [List.mem_cons, List.not_mem_nil, or_false] at hn
    rcases hn with rfl | rfl <;> exact h2
  · intro n hn
    simp only [List.mem_cons, List.not_mem_nil, or_false] at hn
    rcases hn with rfl | rfl <;> exact h3
  · intro d hd n hn
    simp only [List.mem_cons, List.not_mem_nil, or_false] at hn
    rcases hn with rfl | rfl <;> exact hd
  · intro j hj n hn
    have hd : decodeDCT j = some data := by
      unfold encodeDCT at hj
      split at hj
      · simp at hj
      · rename_i hc
        simp only [Option.some.injEq] at hj
        subst hj
        simp only [Bool.or_eq_true, decide_eq_true_eq, not_or] at hc
        unfold decodeDCT
        rw [if_neg hc.1.1, if_neg (by simp only [Bool.or_eq_true, not_or]; exact ⟨hc.1.2, hc.2⟩)]
    simp only [List.mem_cons, List.not_mem_nil, or_false] at hn
    rcases hn with rfl | rfl <;> exact hd

/-- C157: JPEG data are passed on unchanged, and exactly those that begin as JPEG data do are accepted. -/
theorem C157_jpeg (flate : Bytes → Option Bytes) (data out : Bytes) :
    (decodeFilter flate data b!"/DCTDecode" = some out ↔ out = data ∧ ∃ r, data = 0xFF :: 0xD8 :: r) ∧
    (encodeDCT data = some out ↔ out = data ∧ ∃ r, data = 0xFF :: 0xD8 :: r) := by
  have h : ∀ data : Bytes, decodeDCT data = some out ↔ out = data ∧ ∃ r, data = 0xFF :: 0xD8 :: r := by
    intro data
    match data with
    | [] => simp [decodeDCT]
    | [c] => simp [decodeDCT]
    | c :: d :: r =>
      unfold decodeDCT
      rw [if_neg (by simp)]
      constructor
      · intro hh
        split at hh
        · simp at hh
        · rename_i hc
          simp only [List.getD_cons_zero, List.getD_cons_succ, Bool.or_eq_true, bne_iff_ne, ne_eq, not_or, Classical.not_not] at hc
          simp only [Option.some.injEq] at hh
          exact ⟨hh.symm, r, by rw [hc.1, hc.2]⟩
      · rintro ⟨rfl, r', e⟩
        rw [e]
        rfl
  have h' : encodeDCT data = decodeDCT data := by
    unfold encodeDCT decodeDCT
    by_cases h : data.length < 2 <;> simp [h]
  exact ⟨h data, by rw [h']; exact h data⟩

/-- C157: under any other name – also an unknown, misspelt or abbreviated one – there is an error, never wrong data. -/
theorem C157_unknown (flate : Bytes → Option Bytes) (data name : Bytes)
    (h : ∀ n ∈ [b!"FlateDecode", b!"ASCIIHexDecode", b!"ASCII85Decode", b!"RunLengthDecode", b!"DCTDecode"], name ≠ n ∧ name ≠ 47 :: n) :
    decodeFilter flate data name = none := by
  simp only [List.mem_cons, List.not_mem_nil, or_false, forall_eq_or_imp, forall_eq] at h
  obtain ⟨a, b, c, d, e⟩ := h
  unfold decodeFilter
  rw [if_neg (by rw [not_or]; exact ⟨a.2, a.1⟩), if_neg (by rw [not_or]; exact ⟨b.2, b.1⟩), if_neg (by rw [not_or]; exact ⟨c.2, c.1⟩),
    if_neg (by rw [not_or]; exact ⟨d.2, d.1⟩), if_neg (by rw [not_or]; exact ⟨e.2, e.1⟩)]

example : decodeFilter (fun _ => none) b!"616263>" b!"/ASCIIHexDecode" = some b!"abc" ∧ decodeFilter (fun _ => none) b!"616263>" b!"/AHx" = none ∧
    decodeFilter (fun _ => none) [0xFF, 0xD8, 0xFF, 0xE0] b!"DCTDecode" = some [0xFF, 0xD8, 0xFF, 0xE0] ∧
    decodeFilter (fun _ => none) [0xD8, 0xFF] b!"DCTDecode" = none := by decide +kernel

end Pdfer.Props
