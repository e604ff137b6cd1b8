import Verif.Spec.Image
import Verif.Props.Builder
import Verif.Props.Content

/-! C88 – C90: images and watermarks. -/

namespace Pdfer.Props

open Pdfer.Go Pdfer.Writer Pdfer.Image Pdfer.Spec.Image Pdfer.Spec.Builder

/-! ### C88 -/

theorem be16_val (n : Nat) (h : n < 65536) : be16 (UInt8.ofNat (n / 256)) (UInt8.ofNat (n % 256)) = n := by
  unfold be16
  have h1 : (UInt8.ofNat (n / 256)).toNat = n / 256 := by rw [UInt8.toNat_ofNat']; omega
  have h2 : (UInt8.ofNat (n % 256)).toNat = n % 256 := by rw [UInt8.toNat_ofNat']; omega
  rw [h1, h2]; omega

theorem scan_skip (fuel : Nat) (m : UInt8) (body rest : Bytes) (h : body.length + 2 < 65536) (hm : m ≠ 0xFF)
    (hs : ¬ (0xC0 ≤ m ∧ m ≤ 0xC3)) :
    jpegScan (fuel + 1) (0xFF :: m :: (two (body.length + 2) ++ body) ++ rest) = jpegScan fuel rest := by
  have e2 : (0xFF :: m :: (two (body.length + 2) ++ body)) ++ rest =
      0xFF :: m :: UInt8.ofNat ((body.length + 2) / 256) :: UInt8.ofNat ((body.length + 2) % 256) :: (body ++ rest) := by
    simp [two]
  rw [e2, jpegScan]
  rw [if_neg (by simp), if_neg hm, if_neg hs]
  simp only [segmentLength]
  rw [be16_val _ h, List.drop_succ_cons, List.drop_succ_cons, List.drop_left]

theorem segment_length (s : Segment) : s.bytes.length = s.body.length + 4 := by
  simp [Segment.bytes, two]

theorem scan_segments (segs : List Segment) (h : ∀ s ∈ segs, s.Plain) (rest : Bytes) (fuel : Nat) :
    jpegScan (segs.length + fuel) (segs.flatMap Segment.bytes ++ rest) = jpegScan fuel rest := by
  induction segs with
  | nil => simp
  | cons s ss ih =>
    have hs := h s (by simp)
    have e : (s :: ss).length + fuel = (ss.length + fuel) + 1 := by simp; omega
    rw [e, List.flatMap_cons, List.append_assoc, ← ih (fun t ht => h t (by simp [ht]))]
    refine scan_skip _ _ _ _ hs.1 hs.2.1 ?_
    intro hx
    apply hs.2.2
    refine ⟨hx.1, UInt8.le_trans hx.2 (by decide), ?_, ?_, ?_⟩ <;> (rintro e; rw [e] at hx; exact absurd hx.2 (by decide))

theorem flatMap_length_ge (segs : List Segment) : segs.length ≤ (segs.flatMap Segment.bytes).length := by
  induction segs with
  | nil => simp
  | cons s ss ih => rw [List.flatMap_cons, List.length_append, segment_length, List.length_cons]; omega

theorem parse_segments (segs : List Segment) (h : ∀ s ∈ segs, s.Plain) (rest : Bytes) :
    ∃ fuel, rest.length + 1 ≤ fuel ∧ parseJPEGHeader (0xFF :: 0xD8 :: (segs.flatMap Segment.bytes ++ rest)) = jpegScan fuel rest := by
  have hl := flatMap_length_ge segs
  have e : (0xFF :: 0xD8 :: (segs.flatMap Segment.bytes ++ rest)).length = segs.length + ((segs.flatMap Segment.bytes).length - segs.length + rest.length + 2) := by
    simp only [List.length_cons, List.length_append]; omega
  refine ⟨(segs.flatMap Segment.bytes).length - segs.length + rest.length + 2, by omega, ?_⟩
  show jpegScan (0xFF :: 0xD8 :: (segs.flatMap Segment.bytes ++ rest)).length _ = _
  rw [e, scan_segments segs h]

/-- C88 (partial: frames of type 0 to 3, no fill bytes, no marker without a length; see the violations): for every JPEG file, that is, a
start marker, any number of marker segments of any content, then a frame header and anything after it, the width and height that
AddJPEGImage uses are those of the frame header and the colour space follows from the number of its components. -/
theorem C88_jpeg_size_partial (segs : List Segment) (h : ∀ s ∈ segs, s.Plain) (m precision : UInt8) (hm : m ≤ 3) (height width : Nat)
    (h1 : height < 65536) (h2 : width < 65536) (n : UInt8) (more rest : Bytes) :
    parseJPEGHeader ([0xFF, 0xD8] ++ segs.flatMap Segment.bytes ++ (frame m precision height width n more).bytes ++ rest) =
      .ok (width, height, space n) := by
  obtain ⟨fuel, hf, e⟩ := parse_segments segs h ((frame m precision height width n more).bytes ++ rest)
  have e2 : [0xFF, 0xD8] ++ segs.flatMap Segment.bytes ++ (frame m precision height width n more).bytes ++ rest =
      0xFF :: 0xD8 :: (segs.flatMap Segment.bytes ++ ((frame m precision height width n more).bytes ++ rest)) := by simp
  rw [e2, e]
  have hsp : colourSpace n = space n := by
    unfold colourSpace space
    by_cases h1 : n = 1
    · simp [h1]
    · by_cases h3 : n = 3
      · simp [h3]
      · simp [h1, h3]
  obtain ⟨f, rfl⟩ : ∃ f, fuel = f + 1 := ⟨fuel - 1, by omega⟩
  have e3 : ∃ l1 l2, (frame m precision height width n more).bytes ++ rest = 0xFF :: (0xC0 + m) :: l1 :: l2 :: precision ::
      UInt8.ofNat (height / 256) :: UInt8.ofNat (height % 256) :: UInt8.ofNat (width / 256) :: UInt8.ofNat (width % 256) :: n :: (more ++ rest) :=
    ⟨UInt8.ofNat (((frame m precision height width n more).body.length + 2) / 256),
      UInt8.ofNat (((frame m precision height width n more).body.length + 2) % 256), by simp [Segment.bytes, frame, two]⟩
  obtain ⟨l1, l2, e3⟩ := e3
  have hmm : (0xC0 : UInt8) ≤ 0xC0 + m ∧ 0xC0 + m ≤ 0xC3 ∧ (0xC0 + m ≠ 0xFF) := by
    exact forall_byte (p := fun m => m ≤ 3 → (0xC0 : UInt8) ≤ 0xC0 + m ∧ 0xC0 + m ≤ 0xC3 ∧ (0xC0 + m ≠ 0xFF)) (by decide +kernel) m hm
  rw [e3, jpegScan, if_neg (by simp), if_neg hmm.2.2, if_pos ⟨hmm.1, hmm.2.1⟩]
  simp only [frameSize]
  rw [be16_val _ h1, be16_val _ h2, hsp]

/-- A small JPEG header for the examples: an application segment that itself contains `FF C0`, a table, a progressive frame. -/
def exJpeg : Bytes := [0xFF, 0xD8] ++ (Segment.mk 0xE0 (b!"JFIF" ++ [0, 0xFF, 0xC0, 1, 2])).bytes ++ (Segment.mk 0xC4 [1, 2, 3]).bytes ++
  (frame 2 8 480 640 3 [1, 0x22, 0]).bytes ++ [0xFF, 0xDA]
example : parseJPEGHeader exJpeg = .ok (640, 480, b!"/DeviceRGB") := by decide +kernel
example : ∀ s ∈ [Segment.mk 0xE0 (b!"JFIF" ++ [0, 0xFF, 0xC0, 1, 2]), Segment.mk 0xC4 [1, 2, 3]], s.Plain := by
  intro s hs
  simp only [List.mem_cons, List.not_mem_nil, or_false] at hs
  rcases hs with rfl | rfl
  · exact ⟨by decide, by decide, by decide⟩
  · exact ⟨by decide, by decide, by decide⟩

theorem scan_fuel (f1 f2 : Nat) (s : Bytes) (h1 : s.length ≤ f1) (h2 : s.length ≤ f2) (h0 : s ≠ []) : jpegScan f1 s = jpegScan f2 s := by
  induction f1 generalizing f2 s with
  | zero => exact absurd (List.length_eq_zero_iff.1 (by omega)) h0
  | succ f1 ih =>
    match f2, s with
    | _, [] => exact absurd rfl h0
    | 0, _ :: _ => simp at h2
    | f2 + 1, [a] => rfl
    | f2 + 1, a :: m :: r =>
      have e : ∀ t : Bytes, t.length ≤ r.length + 1 → jpegScan f1 t = jpegScan f2 t := by
        intro t ht
        simp only [List.length_cons] at h1 h2
        by_cases h : t = []
        · subst h
          have : ∀ f, jpegScan f ([] : Bytes) = .err := by intro f; cases f <;> rfl
          rw [this, this]
        · exact ih f2 t (by omega) (by omega) h
      rw [jpegScan, jpegScan]
      simp only [e (m :: r) (by simp), e r (by omega)]
      split
      · rfl
      split
      · rfl
      split
      · rfl
      cases segmentLength r with
      | none => rfl
      | some l => exact e _ (by rw [List.length_drop]; omega)

/-- C88, for every input: the search for the frame header ends after at most as many steps as the file has bytes (more steps would change
nothing), so AddJPEGImage returns for every byte sequence. -/
theorem C88_jpeg_terminates (data : Bytes) (extra : Nat) : jpegScan (data.length + extra) (data.drop 2) = jpegScan data.length (data.drop 2) := by
  by_cases h : data.drop 2 = []
  · rw [h]
    have : ∀ f, jpegScan f ([] : Bytes) = .err := by intro f; cases f <;> rfl
    rw [this, this]
  · exact scan_fuel _ _ _ (by rw [List.length_drop]; omega) (by rw [List.length_drop]; omega) h

/-- C88 is violated: for every file that ends right after the size in the frame header, AddJPEGImage panics instead of returning an error. -/
theorem C88_truncated_panics_violated (segs : List Segment) (h : ∀ s ∈ segs, s.Plain) (m : UInt8) (hm : m ≤ 3) (a b c d e f g : UInt8) :
    parseJPEGHeader ([0xFF, 0xD8] ++ segs.flatMap Segment.bytes ++ [0xFF, 0xC0 + m, a, b, c, d, e, f, g]) = .panic := by
  obtain ⟨fuel, hf, ee⟩ := parse_segments segs h [0xFF, 0xC0 + m, a, b, c, d, e, f, g]
  rw [List.append_assoc, show ([0xFF, 0xD8] : Bytes) ++ (segs.flatMap Segment.bytes ++ [0xFF, 0xC0 + m, a, b, c, d, e, f, g]) =
    0xFF :: 0xD8 :: (segs.flatMap Segment.bytes ++ [0xFF, 0xC0 + m, a, b, c, d, e, f, g]) from rfl, ee]
  obtain ⟨k, rfl⟩ : ∃ k, fuel = k + 1 := ⟨fuel - 1, by omega⟩
  have hmm : (0xC0 : UInt8) ≤ 0xC0 + m ∧ 0xC0 + m ≤ 0xC3 ∧ (0xC0 + m ≠ 0xFF) := by
    exact forall_byte (p := fun m => m ≤ 3 → (0xC0 : UInt8) ≤ 0xC0 + m ∧ 0xC0 + m ≤ 0xC3 ∧ (0xC0 + m ≠ 0xFF)) (by decide +kernel) m hm
  rw [jpegScan, if_neg (by simp), if_neg hmm.2.2, if_pos ⟨hmm.1, hmm.2.1⟩]
  rfl

theorem scan_noFF (fuel : Nat) (s : Bytes) (h : (0xFF : UInt8) ∉ s) : jpegScan fuel s = .err := by
  induction fuel generalizing s with
  | zero => rfl
  | succ f ih =>
    match s with
    | [] => rfl
    | [_] => rfl
    | a :: m :: r =>
      rw [jpegScan, if_pos (by rintro rfl; exact h (by simp))]
      exact ih _ (by intro hm; exact h (by simp only [List.mem_cons] at hm ⊢; exact .inr hm))

/-- C88 is violated: one fill byte FF before the frame header, which the format allows, and the header is not found (for every frame header
and rest without a further FF). -/
theorem C88_fill_byte_violated (segs : List Segment) (h : ∀ s ∈ segs, s.Plain) (s : Segment) (rest : Bytes) (hno : (0xFF : UInt8) ∉ s.bytes.drop 1 ++ rest) :
    parseJPEGHeader ([0xFF, 0xD8] ++ segs.flatMap Segment.bytes ++ (0xFF :: s.bytes) ++ rest) = .err := by
  obtain ⟨fuel, hf, e⟩ := parse_segments segs h ((0xFF :: s.bytes) ++ rest)
  rw [List.append_assoc, List.append_assoc, show ([0xFF, 0xD8] : Bytes) ++ (segs.flatMap Segment.bytes ++ ((0xFF :: s.bytes) ++ rest)) =
    0xFF :: 0xD8 :: (segs.flatMap Segment.bytes ++ ((0xFF :: s.bytes) ++ rest)) from rfl, e]
  obtain ⟨k, rfl⟩ : ∃ k, fuel = k + 1 := ⟨fuel - 1, by omega⟩
  have : (0xFF :: s.bytes) ++ rest = 0xFF :: 0xFF :: (s.bytes.drop 1 ++ rest) := rfl
  rw [this, jpegScan, if_neg (by simp), if_pos rfl]
  exact scan_noFF _ _ hno

/-- C88 is violated: a frame of type 5 to 15 (lossless, differential, arithmetic coding), whatever its size, is skipped, and no size is found
when no other follows. -/
theorem C88_other_frames_violated (segs : List Segment) (h : ∀ s ∈ segs, s.Plain) (m precision : UInt8) (hm : 5 ≤ m ∧ m ≤ 15) (height width : Nat)
    (n : UInt8) (more rest : Bytes) (hl : more.length < 60000) (hno : (0xFF : UInt8) ∉ rest) :
    parseJPEGHeader ([0xFF, 0xD8] ++ segs.flatMap Segment.bytes ++ (frame m precision height width n more).bytes ++ rest) = .err := by
  obtain ⟨fuel, hf, e⟩ := parse_segments segs h ((frame m precision height width n more).bytes ++ rest)
  rw [List.append_assoc, List.append_assoc, show ([0xFF, 0xD8] : Bytes) ++ (segs.flatMap Segment.bytes ++ ((frame m precision height width n more).bytes ++ rest)) =
    0xFF :: 0xD8 :: (segs.flatMap Segment.bytes ++ ((frame m precision height width n more).bytes ++ rest)) from rfl, e]
  obtain ⟨k, rfl⟩ : ∃ k, fuel = k + 1 := ⟨fuel - 1, by omega⟩
  have hmm : (0xC0 + m ≠ 0xFF) ∧ ¬ (0xC0 ≤ 0xC0 + m ∧ 0xC0 + m ≤ (0xC3 : UInt8)) := by
    exact forall_byte (p := fun m => 5 ≤ m ∧ m ≤ 15 → (0xC0 + m ≠ 0xFF) ∧ ¬ (0xC0 ≤ 0xC0 + m ∧ 0xC0 + m ≤ (0xC3 : UInt8))) (by decide +kernel) m hm
  exact (scan_skip _ _ _ _ (by simp [frame, two]; omega) hmm.1 hmm.2).trans (scan_noFF _ _ hno)

example : parseJPEGHeader ([0xFF, 0xD8, 0xFF, 0xFF, 0xC0, 0, 17, 8, 1, 0xE0, 2, 0x80, 3, 0xFF, 0xDA]) = .err ∧
    parseJPEGHeader ([0xFF, 0xD8, 0xFF, 0xC0, 0, 17, 8, 1, 0xE0, 2, 0x80, 3, 0xFF, 0xDA]) = .ok (640, 480, b!"/DeviceRGB") := by decide +kernel

/-! ### C89 -/

/-- Assignments carried out one after the other. -/
def assign (d : Bytes) (l : List (Nat × UInt8)) : Bytes := l.foldl (fun d e => d.set e.1 e.2) d

theorem assign_length (d : Bytes) (l : List (Nat × UInt8)) : (assign d l).length = d.length := by
  induction l generalizing d with
  | nil => rfl
  | cons e l ih => rw [assign, List.foldl_cons]; exact (ih _).trans (by simp)

theorem assign_keep (d : Bytes) (l : List (Nat × UInt8)) (i : Nat) (v : UInt8) (hd : d[i]? = some v) (hl : ∀ e ∈ l, e.1 = i → e.2 = v) :
    (assign d l)[i]? = some v := by
  induction l generalizing d with
  | nil => exact hd
  | cons e l ih =>
    rw [assign, List.foldl_cons]
    refine ih _ ?_ (fun x hx => hl x (by simp [hx]))
    rw [List.getElem?_set]
    split
    · rename_i h
      have : i < d.length := by
        apply Classical.byContradiction; intro hn
        rw [List.getElem?_eq_none (by omega)] at hd
        simp at hd
      rw [if_pos (by omega), hl e (by simp) h]
    · exact hd

theorem assign_get (d : Bytes) (l : List (Nat × UInt8)) (i : Nat) (v : UInt8) (hi : i < d.length) (hm : (i, v) ∈ l)
    (hl : ∀ e ∈ l, e.1 = i → e.2 = v) : (assign d l)[i]? = some v := by
  induction l generalizing d with
  | nil => simp at hm
  | cons e l ih =>
    rw [assign, List.foldl_cons]
    rcases List.mem_cons.1 hm with h | h
    · subst h
      refine assign_keep _ _ _ _ ?_ (fun x hx => hl x (by simp [hx]))
      rw [List.getElem?_set_self hi]
    · exact ih _ (by simpa using hi) h (fun x hx => hl x (by simp [hx]))

theorem forPixels_assign (width height : Nat) (f : Nat → Nat → List (Nat × UInt8)) (d : Bytes) :
    forPixels width height (fun d x y => assign d (f x y)) d =
      assign d ((List.range height).flatMap fun y => (List.range width).flatMap fun x => f x y) := by
  unfold forPixels
  have inner : ∀ (xs : List Nat) (y : Nat) (d : Bytes), xs.foldl (fun acc x => assign acc (f x y)) d = assign d (xs.flatMap fun x => f x y) := by
    intro xs y
    induction xs with
    | nil => intro d; rfl
    | cons x xs ih => intro d; rw [List.foldl_cons, ih, List.flatMap_cons]; unfold assign; rw [List.foldl_append]
  have outer : ∀ (ys : List Nat) (d : Bytes), ys.foldl (fun acc y => (List.range width).foldl (fun acc x => assign acc (f x y)) acc) d =
      assign d (ys.flatMap fun y => (List.range width).flatMap fun x => f x y) := by
    intro ys
    induction ys with
    | nil => intro d; rfl
    | cons y ys ih => intro d; rw [List.foldl_cons, ih, List.flatMap_cons, inner]; unfold assign; rw [List.foldl_append]
  exact outer _ d

theorem idx_lt {w h x y : Nat} (hx : x < w) (hy : y < h) : y * w + x < w * h := by
  have : (y + 1) * w ≤ h * w := Nat.mul_le_mul_right _ hy
  rw [Nat.add_mul, Nat.one_mul] at this
  rw [Nat.mul_comm w h]
  omega

theorem idx_inj {w x y x' y' : Nat} (hx : x < w) (hx' : x' < w) (h : y * w + x = y' * w + x') : x = x' ∧ y = y' := by
  have h1 : (y * w + x) % w = x := by rw [Nat.add_comm, Nat.add_mul_mod_self_right, Nat.mod_eq_of_lt hx]
  have h2 : (y' * w + x') % w = x' := by rw [Nat.add_comm, Nat.add_mul_mod_self_right, Nat.mod_eq_of_lt hx']
  have hxx : x = x' := by rw [← h1, ← h2, h]
  subst hxx
  have : y * w = y' * w := by omega
  exact ⟨rfl, Nat.eq_of_mul_eq_mul_right (by omega) this⟩

theorem one_per_pixel (width height : Nat) (v : Nat → Nat → UInt8) :
    let d := forPixels width height (fun (d : Bytes) x y => d.set (y * width + x) (v x y)) (List.replicate (width * height) 0)
    d.length = width * height ∧ ∀ x y, x < width → y < height → d[y * width + x]? = some (v x y) := by
  intro d
  have e : d = assign (List.replicate (width * height) 0)
      ((List.range height).flatMap fun y => (List.range width).flatMap fun x => [(y * width + x, v x y)]) :=
    forPixels_assign width height (fun x y => [(y * width + x, v x y)]) _
  refine ⟨by rw [e, assign_length]; simp, ?_⟩
  intro x y hx hy
  rw [e]
  refine assign_get _ _ _ _ (by simpa using idx_lt hx hy) ?_ ?_
  · simp only [List.mem_flatMap, List.mem_range, List.mem_singleton]
    exact ⟨y, hy, x, hx, rfl⟩
  · intro q hq hqi
    simp only [List.mem_flatMap, List.mem_range, List.mem_singleton] at hq
    obtain ⟨y', hy', x', hx', rfl⟩ := hq
    simp only at hqi
    obtain ⟨rfl, rfl⟩ := idx_inj hx' hx hqi
    rfl

theorem three_per_pixel (width height : Nat) (v : Nat → Nat → Nat → UInt8) :
    let d := forPixels width height (fun (d : Bytes) x y =>
      let i := (y * width + x) * 3
      ((d.set i (v 0 x y)).set (i + 1) (v 1 x y)).set (i + 2) (v 2 x y)) (List.replicate (width * height * 3) 0)
    d.length = width * height * 3 ∧ ∀ x y k, x < width → y < height → k < 3 → d[(y * width + x) * 3 + k]? = some (v k x y) := by
  intro d
  have e : d = assign (List.replicate (width * height * 3) 0)
      ((List.range height).flatMap fun y => (List.range width).flatMap fun x =>
        [((y * width + x) * 3, v 0 x y), ((y * width + x) * 3 + 1, v 1 x y), ((y * width + x) * 3 + 2, v 2 x y)]) :=
    forPixels_assign width height (fun x y => [((y * width + x) * 3, v 0 x y), ((y * width + x) * 3 + 1, v 1 x y), ((y * width + x) * 3 + 2, v 2 x y)]) _
  refine ⟨by rw [e, assign_length]; simp, ?_⟩
  intro x y k hx hy hk
  rw [e]
  refine assign_get _ _ _ _ ?_ ?_ ?_
  · have := idx_lt hx hy
    simp only [List.length_replicate]
    omega
  · simp only [List.mem_flatMap, List.mem_range]
    refine ⟨y, hy, x, hx, ?_⟩
    match k, hk with
    | 0, _ => simp
    | 1, _ => simp
    | 2, _ => simp
  · intro q hq hqi
    simp only [List.mem_flatMap, List.mem_range] at hq
    obtain ⟨y', hy', x', hx', hq⟩ := hq
    have : y' * width + x' = y * width + x ∧ q = ((y' * width + x') * 3 + k, v k x' y') := by
      simp only [List.mem_cons, List.not_mem_nil, or_false] at hq
      rcases hq with rfl | rfl | rfl <;> simp only at hqi
      · have : k = 0 := by omega
        subst this
        exact ⟨by omega, rfl⟩
      · have : k = 1 := by omega
        subst this
        exact ⟨by omega, rfl⟩
      · have : k = 2 := by omega
        subst this
        exact ⟨by omega, rfl⟩
    obtain ⟨rfl, rfl⟩ := idx_inj hx' hx this.1
    rw [this.2]

theorem high_nrgba_opaque (r : UInt8) : high (r.toNat * 257 * 255 / 255) = r :=
  forall_byte (p := fun r => high (r.toNat * 257 * 255 / 255) = r) (by decide +kernel) r

/-- C89 (partial: see the violations): for every size, every image in colours without transparency is embedded pixel by pixel: the image object
has three bytes per pixel, rows from the top and pixels from the left, each the red, green and blue of the pixel; its mask (made for every
NRGBA image) is opaque everywhere. -/
theorem C89_opaque_pixels_partial (img : Img) (px : Nat → Nat → UInt8 × UInt8 × UInt8) (hk : img.kind = .nrgba)
    (h : ∀ x y, img.at_ x y = nrgba (px x y).1 (px x y).2.1 (px x y).2.2 255) :
    (rawData img).1 = b!"/DeviceRGB" ∧ (rawData img).2.length = img.width * img.height * 3 ∧
    (∀ x y, x < img.width → y < img.height →
      (rawData img).2[(y * img.width + x) * 3]? = some (px x y).1 ∧ (rawData img).2[(y * img.width + x) * 3 + 1]? = some (px x y).2.1 ∧
      (rawData img).2[(y * img.width + x) * 3 + 2]? = some (px x y).2.2) ∧
    (alphaMask img).length = img.width * img.height ∧ ∀ x y, x < img.width → y < img.height → (alphaMask img)[y * img.width + x]? = some 255 := by
  have hp := three_per_pixel img.width img.height (fun k x y => match k with
    | 0 => high (img.at_ x y).1
    | 1 => high (img.at_ x y).2.1
    | _ => high (img.at_ x y).2.2.1)
  have hm := one_per_pixel img.width img.height (fun x y => high (img.at_ x y).2.2.2)
  have hr : rawData img = (b!"/DeviceRGB", forPixels img.width img.height (fun (d : Bytes) x y =>
        let p := img.at_ x y
        let i := (y * img.width + x) * 3
        ((d.set i (high p.1)).set (i + 1) (high p.2.1)).set (i + 2) (high p.2.2.1))
      (List.replicate (img.width * img.height * 3) 0)) := by
    unfold rawData; rw [hk]
  rw [hr]
  refine ⟨rfl, hp.1, ?_, hm.1, ?_⟩
  · intro x y hx hy
    refine ⟨(hp.2 x y 0 hx hy (by omega)).trans ?_, (hp.2 x y 1 hx hy (by omega)).trans ?_, (hp.2 x y 2 hx hy (by omega)).trans ?_⟩ <;>
      simp only [h, nrgba] <;> exact congrArg some (high_nrgba_opaque _)
  · intro x y hx hy
    refine (hm.2 x y hx hy).trans ?_
    simp only [h, nrgba]
    decide

/-- C89: the same for gray images: one byte per pixel, the gray value of the pixel. -/
theorem C89_gray_pixels_partial (img : Img) (px : Nat → Nat → UInt8) (hk : img.kind = .gray)
    (h : ∀ x y, img.at_ x y = ((px x y).toNat * 257, (px x y).toNat * 257, (px x y).toNat * 257, 65535)) :
    (rawData img).1 = b!"/DeviceGray" ∧ (rawData img).2.length = img.width * img.height ∧
    ∀ x y, x < img.width → y < img.height → (rawData img).2[y * img.width + x]? = some (px x y) := by
  have hp := one_per_pixel img.width img.height (fun x y => grayY (img.at_ x y))
  have hr : rawData img = (b!"/DeviceGray", forPixels img.width img.height (fun (d : Bytes) x y => d.set (y * img.width + x) (grayY (img.at_ x y)))
      (List.replicate (img.width * img.height) 0)) := by
    unfold rawData; rw [hk]
  rw [hr]
  refine ⟨rfl, hp.1, ?_⟩
  intro x y hx hy
  refine (hp.2 x y hx hy).trans ?_
  rw [h]
  exact congrArg some (forall_byte (p := fun v => grayY (v.toNat * 257, v.toNat * 257, v.toNat * 257, 65535) = v) (by decide +kernel) (px x y))

/-- C89, for images with a mask: the image is stored with its compressed pixels, its dictionary names the mask, which is stored right after it,
and nothing that was stored before changes. -/
theorem C89_mask_stored (env : Writer.Env) (w : Writer) (hw : Writer.Inv w) (img : Img) (hk : hasAlpha img.kind = true) (h0 : 0 < img.width * img.height) :
    let r := Image.addImage env w img
    r.2 = w.nextObjNum ∧ r.1.nextObjNum = w.nextObjNum + 2 ∧
    (∃ o a, r.1.objects.get r.2 = some o ∧ o.stream = some (env.z (rawData img).2) ∧ o.dict = some a ∧
      ((r.1.heap.getD a []).get b!"SMask" = some (.str (ref (r.2 + 1))) ∧ (r.1.heap.getD a []).get b!"Width" = some (.int img.width) ∧
       (r.1.heap.getD a []).get b!"Height" = some (.int img.height))) ∧
    (∃ o, r.1.objects.get (r.2 + 1) = some o ∧ o.stream = some (env.z (alphaMask img))) ∧
    (∀ k, k < w.nextObjNum → r.1.objects.get k = w.objects.get k) := by
  intro r
  have hm := (one_per_pixel img.width img.height (fun x y => high (img.at_ x y).2.2.2)).1
  have hml : 0 < (alphaMask img).length := by unfold alphaMask; rw [hm]; exact h0
  have hrl : 0 < (rawData img).2.length := by
    have hp := (three_per_pixel img.width img.height (fun k x y => match k with
      | 0 => high (img.at_ x y).1
      | 1 => high (img.at_ x y).2.1
      | _ => high (img.at_ x y).2.2.1)).1
    have : (rawData img).2 = forPixels img.width img.height (fun (d : Bytes) x y =>
        let p := img.at_ x y
        let i := (y * img.width + x) * 3
        ((d.set i (high p.1)).set (i + 1) (high p.2.1)).set (i + 2) (high p.2.2.1))
      (List.replicate (img.width * img.height * 3) 0) := by
      unfold rawData
      cases hkk : img.kind <;> rw [hkk] at hk <;> first | rfl | simp [hasAlpha] at hk
    rw [this]
    have hp' : (forPixels img.width img.height (fun (d : Bytes) x y =>
        let p := img.at_ x y
        let i := (y * img.width + x) * 3
        ((d.set i (high p.1)).set (i + 1) (high p.2.1)).set (i + 2) (high p.2.2.1))
      (List.replicate (img.width * img.height * 3) 0)).length = img.width * img.height * 3 := hp
    rw [hp']
    omega
  have hr : r = Image.addImage env w img := rfl
  clear_value r
  unfold Image.addImage at hr
  simp only [hk, if_true] at hr
  generalize rawData img = raw at *
  simp only [addStreamObject, prepareStream, Option.getD_some, Bool.true_and, decide_eq_true hrl, decide_eq_true hml, if_true] at hr
  have hget : Map.get (Map.set (Map.set w.objects w.nextObjNum { content := none, stream := some (env.z raw.2), dict := some w.heap.length })
      (w.nextObjNum + 1) { content := none, stream := some (env.z (alphaMask img)), dict := some (w.heap.length + 1) }) w.nextObjNum =
      some { content := none, stream := some (env.z raw.2), dict := some w.heap.length } := by
    rw [Map.get_set, if_neg (by omega), Map.get_set, if_pos rfl]
  simp only [List.length_append, List.length_singleton] at hr
  rw [hget] at hr
  simp only [Option.bind_some] at hr
  subst hr
  refine ⟨rfl, by simp only; omega, ⟨_, w.heap.length, hget, rfl, rfl, ?_⟩, ⟨_, by simp only; rw [Map.get_set, if_pos rfl], rfl⟩, ?_⟩
  · have hh : (List.set (w.heap ++ [Map.set (Map.set (imageDict img raw.1) b!"Filter" (.str b!"/FlateDecode")) b!"Length" (.int (env.z raw.2).length)] ++
        [Map.set (Map.set (imageDict img b!"/DeviceGray") b!"Filter" (.str b!"/FlateDecode")) b!"Length" (.int (env.z (alphaMask img)).length)])
        w.heap.length (Map.set ((w.heap ++ [Map.set (Map.set (imageDict img raw.1) b!"Filter" (.str b!"/FlateDecode")) b!"Length" (.int (env.z raw.2).length)] ++
        [Map.set (Map.set (imageDict img b!"/DeviceGray") b!"Filter" (.str b!"/FlateDecode")) b!"Length" (.int (env.z (alphaMask img)).length)]).getD w.heap.length [])
          b!"SMask" (.str (ref (w.nextObjNum + 1))))).getD w.heap.length [] =
        Map.set (Map.set (Map.set (imageDict img raw.1) b!"Filter" (.str b!"/FlateDecode")) b!"Length" (.int (env.z raw.2).length))
          b!"SMask" (.str (ref (w.nextObjNum + 1))) := by
      rw [List.getD_eq_getElem?_getD, List.getElem?_set_self (by simp)]
      simp
    simp only
    rw [hh]
    refine ⟨by rw [Map.get_set, if_pos rfl], ?_, ?_⟩
    · rw [Map.get_set, if_neg (by decide), Map.get_set, if_neg (by decide), Map.get_set, if_neg (by decide)]
      simp [imageDict, Map.get]
    · rw [Map.get_set, if_neg (by decide), Map.get_set, if_neg (by decide), Map.get_set, if_neg (by decide)]
      simp [imageDict, Map.get]
  · intro k hk
    simp only
    rw [Map.get_set, if_neg (by omega), Map.get_set, if_neg (by omega)]

/-- C89 is violated: the colour of every pixel of an NRGBA image that is not opaque is stored multiplied by its alpha, that is, too dark: every
component that is not 0 gets smaller, and the mask is then applied once more by the viewer. -/
theorem C89_translucent_darkened_violated (r g b a : UInt8) (ha : a ≠ 255) (hr : r ≠ 0) : (high (nrgba r g b a).1).toNat < r.toNat := by
  have h1 : a.toNat ≤ 254 := by
    have : a.toNat ≠ 255 := fun h => ha (UInt8.toNat_inj.1 (by rw [h]; rfl))
    have := a.toNat_lt; omega
  have h2 : 0 < r.toNat := by
    have : r.toNat ≠ 0 := fun h => hr (UInt8.toNat_inj.1 (by rw [h]; rfl))
    omega
  have hlt := r.toNat_lt
  simp only [nrgba, high]
  have h3 : r.toNat * 257 * a.toNat ≤ r.toNat * 257 * 254 := Nat.mul_le_mul_left _ h1
  have h4 : r.toNat * 257 * a.toNat / 255 / 256 < r.toNat := by
    rw [Nat.div_div_eq_div_mul]
    apply (Nat.div_lt_iff_lt_mul (by omega)).2
    omega
  rw [UInt8.toNat_ofNat', Nat.mod_eq_of_lt (by omega)]
  exact h4

example : (high (nrgba 255 255 255 128).1, high (nrgba 255 255 255 128).2.2.2) = (128, 128) := by decide

/-- C89 is violated: an image with 16 bits per channel or with a palette gets no mask, whatever its transparency: exactly one object is added. -/
theorem C89_transparency_dropped_violated (env : Writer.Env) (w : Writer) (img : Img) (hk : img.kind = .nrgba64 ∨ img.kind = .paletted) :
    Image.addImage env w img = addStreamObject env w (.fresh (imageDict img (rawData img).1)) (some (rawData img).2) true := by
  unfold Image.addImage
  rcases hk with h | h <;> simp [h, hasAlpha]

example : let img : Img := ⟨.nrgba, 2, 1, fun x _ => if x = 0 then nrgba 1 2 3 255 else nrgba 250 251 252 255⟩
    rawData img = (b!"/DeviceRGB", [1, 2, 3, 250, 251, 252]) ∧ alphaMask img = [255, 255] := by decide +kernel

/-! ### C90 -/

section Watermark

open Pdfer.Spec.Content

variable {F : Type}

/-- C90 (partial: see the violations): whenever AddWatermark succeeds, on every page, in every state of drawing and for all options, the graphics
state and the stack of saved states are afterwards what they were, no shape is drawn, and exactly one text is shown, in the font whose name was
added to the page, or exactly one image is drawn. -/
theorem C90_watermark_balanced_partial (g : Geo F) (A : Arith F) (fonts : Option (Map Bytes Enc.Decoder)) (width height : F) (w : Writer)
    (p : Builder.Page) (o : Options F) (w' : Writer) (p' : Builder.Page) (calls : List (Content.Call F))
    (h : addWatermark g width height w p o = some (w', p', calls, true)) (s : Spec.Content.Page F) :
    let s' := calls.foldl (exec A fonts) s
    s'.gs = s.gs ∧ s'.stack = s.stack ∧ s'.shapes = s.shapes ∧
    ((o.imageName = [] ∧ s'.images = s.images ∧ ∃ e, s'.shown = s.shown ++ [e] ∧ e.par.size = A.val o.fontSize ∧
        b!"/" <+: e.par.font ∧ (p'.fonts.get (e.par.font.drop 1)).isSome ∧ (fonts = none → e.text = o.text)) ∨
     (o.imageName ≠ [] ∧ s'.shown = s.shown ∧ (∃ m, s'.images = s.images ++ [(o.imageName, m)]) ∧ (p.images.get o.imageName).isSome)) := by
  unfold addWatermark markHead at h
  cases hc : o.color with
  | none => rw [hc] at h; simp at h
  | some rgb =>
    obtain ⟨r, gr, b⟩ := rgb
    rw [hc] at h
    simp only [Option.map_some, Option.some.injEq] at h
    by_cases hi : o.imageName = []
    · rw [if_neg (by simp [hi])] at h
      by_cases ht : o.text = []
      · rw [if_pos ht] at h; simp at h
      · rw [if_neg ht] at h
        simp only [Prod.mk.injEq, and_true] at h
        obtain ⟨rfl, rfl, hcalls⟩ := h
        have hname : (Builder.addStandardFont w p o.fontName).2.2 = b!"/" ++ ((Builder.addStandardFont w p o.fontName).2.2.drop 1) ∧
            ((Builder.addStandardFont w p o.fontName).2.1.fonts.get ((Builder.addStandardFont w p o.fontName).2.2.drop 1)).isSome := by
          unfold Builder.addStandardFont
          split
          · rename_i hh
            exact ⟨rfl, hh⟩
          · refine ⟨rfl, ?_⟩
            simp only [List.cons_append, List.nil_append, List.drop_succ_cons, List.drop_zero]
            rw [Map.get_set, if_pos rfl]
            rfl
        intro s'
        have hs' : s' = List.foldl (exec A fonts) s calls := rfl
        clear_value s'
        rw [← hcalls, List.foldl_append, List.foldl_append] at hs'
        by_cases hz : g.isZero o.angle
        · rw [if_pos hz] at hs'
          split at hs' <;> simp only [List.foldl_cons, List.foldl_nil, exec, Spec.Content.Page.setPaint, Spec.Content.Page.setText, Spec.Content.Page.move, Spec.Content.Page.show] at hs' <;> subst hs' <;>
            refine ⟨rfl, rfl, rfl, .inl ⟨hi, rfl, _, rfl, rfl, ⟨_, hname.1.symm⟩, hname.2, ?_⟩⟩ <;>
            (intro hf; simp [readLit, fontOf, hf])
        · rw [if_neg hz] at hs'
          split at hs' <;> simp only [List.foldl_cons, List.foldl_nil, exec, Spec.Content.Page.setPaint, Spec.Content.Page.setText, Spec.Content.Page.move, Spec.Content.Page.show] at hs' <;> subst hs' <;>
            refine ⟨rfl, rfl, rfl, .inl ⟨hi, rfl, _, rfl, rfl, ⟨_, hname.1.symm⟩, hname.2, ?_⟩⟩ <;>
            (intro hf; simp [readLit, fontOf, hf])
    · rw [if_pos hi] at h
      by_cases hn : (p.images.get o.imageName).isNone
      · rw [if_pos hn] at h; simp at h
      · rw [if_neg hn] at h
        simp only [Prod.mk.injEq, and_true] at h
        obtain ⟨rfl, rfl, hcalls⟩ := h
        have hsome : (p.images.get o.imageName).isSome := by
          cases hh : p.images.get o.imageName with
          | none => rw [hh] at hn; simp at hn
          | some _ => rfl
        intro s'
        have hs' : s' = List.foldl (exec A fonts) s calls := rfl
        clear_value s'
        rw [← hcalls, List.foldl_append, List.foldl_append] at hs'
        by_cases hz : g.isZero o.angle
        · rw [if_pos hz] at hs'
          split at hs' <;> simp only [List.foldl_cons, List.foldl_nil, exec, Spec.Content.Page.setPaint] at hs' <;> subst hs' <;>
            exact ⟨rfl, rfl, rfl, .inr ⟨hi, rfl, ⟨_, rfl⟩, hsome⟩⟩
        · rw [if_neg hz] at hs'
          split at hs' <;> simp only [List.foldl_cons, List.foldl_nil, exec, Spec.Content.Page.setPaint] at hs' <;> subst hs' <;>
            exact ⟨rfl, rfl, rfl, .inr ⟨hi, rfl, ⟨_, rfl⟩, hsome⟩⟩

/-- The place of a watermark: the given point, or the middle of the page if both coordinates are zero. -/
def markPlace (g : Geo F) (width height : F) (o : Options F) : F × F :=
  if g.isZero o.x = true ∧ g.isZero o.y = true then (g.half width, g.half height) else (o.x, o.y)

/-- The coordinate system of a watermark: the old one, moved to the place and turned by the angle. -/
def markSystem (g : Geo F) (A : Arith F) (width height : F) (o : Options F) (ctm : List F) : List F :=
  let moved := A.mul [A.val g.one, A.val g.zero, A.val g.zero, A.val g.one, A.val (markPlace g width height o).1, A.val (markPlace g width height o).2] ctm
  if g.isZero o.angle = true then moved
  else A.mul [A.val (g.rotation o.angle).1, A.val (g.rotation o.angle).2.1, A.val (g.rotation o.angle).2.2.1, A.val (g.rotation o.angle).2.2.2,
    A.val g.zero, A.val g.zero] moved

/-- The colour of a watermark: faded if the opacity is below one. -/
def markColour (g : Geo F) (o : Options F) (c : F × F × F) : F × F × F :=
  if g.below1 o.opacity = true then (g.mul c.1 o.opacity, g.mul c.2.1 o.opacity, g.mul c.2.2 o.opacity) else c

/-- C90, place, angle and colour (partial: see the violations): whenever AddWatermark succeeds with a text, on every page and in every
state of drawing, the text is shown in the coordinate system moved to the given point - the middle of the page if none is given - and turned
by the angle, in the given colour, centred there. -/
theorem C90_text_place_partial (g : Geo F) (A : Arith F) (fonts : Option (Map Bytes Enc.Decoder)) (width height : F) (w : Writer)
    (p : Builder.Page) (o : Options F) (w' : Writer) (p' : Builder.Page) (calls : List (Content.Call F))
    (h : addWatermark g width height w p o = some (w', p', calls, true)) (hi : o.imageName = []) (s : Spec.Content.Page F) :
    ∃ c before, o.color = some c ∧ calls = before ++ [.showText o.text, .endText, .restoreState] ∧
      (before.foldl (exec A fonts) s).gs.ctm = markSystem g A width height o s.gs.ctm ∧
      (before.foldl (exec A fonts) s).gs.paint.fill =
        [A.val (markColour g o c).1, A.val (markColour g o c).2.1, A.val (markColour g o c).2.2] ∧
      (before.foldl (exec A fonts) s).tlm = A.mul (A.shift (A.val (g.textX o.text.length o.fontSize)) (A.val (g.textY o.fontSize))) A.unit := by
  unfold addWatermark markHead at h
  cases hc : o.color with
  | none => rw [hc] at h; simp at h
  | some rgb =>
    obtain ⟨r, gr, b⟩ := rgb
    rw [hc] at h
    simp only [Option.map_some, Option.some.injEq] at h
    rw [if_neg (by simp [hi])] at h
    by_cases ht : o.text = []
    · rw [if_pos ht] at h; simp at h
    · rw [if_neg ht] at h
      simp only [Prod.mk.injEq, and_true] at h
      obtain ⟨_, _, hcalls⟩ := h
      have key : ∀ (H : List (Content.Call F)) (x y z e f k : Content.Call F), H ++ [x, y, z, e, f, k] = calls →
          calls = (H ++ [x, y, z]) ++ [e, f, k] := by intro H x y z e f k hh; rw [← hh]; simp
      refine ⟨(r, gr, b), _, rfl, key _ _ _ _ _ _ _ hcalls, ?_⟩
      · by_cases hz : g.isZero o.angle = true <;> by_cases hb : g.below1 o.opacity = true <;>
          by_cases hxy : g.isZero o.x = true ∧ g.isZero o.y = true <;>
          simp [hz, hb, hxy, exec, Spec.Content.Page.setPaint, Spec.Content.Page.setText, Spec.Content.Page.move, markSystem, markPlace, markColour]

/-- C90 for images: drawn in the same coordinate system, half as wide and as high as the page around the place. -/
theorem C90_image_place_partial (g : Geo F) (A : Arith F) (fonts : Option (Map Bytes Enc.Decoder)) (width height : F) (w : Writer)
    (p : Builder.Page) (o : Options F) (w' : Writer) (p' : Builder.Page) (calls : List (Content.Call F))
    (h : addWatermark g width height w p o = some (w', p', calls, true)) (hi : o.imageName ≠ []) (s : Spec.Content.Page F) :
    (calls.foldl (exec A fonts) s).images = s.images ++ [(o.imageName,
      A.mul [A.val (g.half width), A.val g.zero, A.val g.zero, A.val (g.half height), A.val g.zero, A.val g.zero]
        (A.mul [A.val g.one, A.val g.zero, A.val g.zero, A.val g.one, A.val (g.minusQuarter width), A.val (g.minusQuarter height)]
          (markSystem g A width height o s.gs.ctm)))] := by
  unfold addWatermark markHead at h
  cases hc : o.color with
  | none => rw [hc] at h; simp at h
  | some rgb =>
    obtain ⟨r, gr, b⟩ := rgb
    rw [hc] at h
    simp only [Option.map_some, Option.some.injEq] at h
    rw [if_pos hi] at h
    by_cases hn : (p.images.get o.imageName).isNone
    · rw [if_pos hn] at h; simp at h
    · rw [if_neg hn] at h
      simp only [Prod.mk.injEq, and_true] at h
      obtain ⟨_, _, hcalls⟩ := h
      rw [← hcalls]
      by_cases hz : g.isZero o.angle = true <;> by_cases hb : g.below1 o.opacity = true <;>
        by_cases hxy : g.isZero o.x = true ∧ g.isZero o.y = true <;>
        simp [hz, hb, hxy, exec, Spec.Content.Page.setPaint, markSystem, markPlace]

/-- A geometry with whole numbers in ten-thousandths for the examples. -/
def exGeo : Geo Int := ⟨(· < 10000), fun a b => a * b / 10000, 0, 10000, (· == 0), (· / 2), fun a => - (a / 4), fun _ => (0, 10000, -10000, 0),
  fun n s => - ((n : Int) * s * 6 / 10) / 2, fun s => - (s / 2)⟩
def exMark : Options Int := { defaultOptions exGeo 480000 3000 450000 5000 with text := b!"DRAFT" }

example : (addWatermark exGeo 6120000 7920000 newWriter (Builder.newPage b!"612" b!"792") exMark).map (fun r => (r.2.1.fonts, r.2.2.2)) =
    some ([(b!"F1", 1)], true) := by decide +kernel
example : markPlace exGeo 6120000 7920000 exMark = (3060000, 3960000) ∧ markPlace exGeo 6120000 7920000 { exMark with x := 10000 } = (10000, 0) := by
  decide +kernel

/-- C90 is violated: with the default options (nil), as the documentation allows, AddWatermark always fails. -/
theorem C90_default_options_violated (g : Geo F) (width height : F) (w : Writer) (p : Builder.Page) (a b c d : F) :
    ∃ calls, addWatermark g width height w p (defaultOptions g a b c d) = some (w, p, calls, false) := by
  unfold addWatermark markHead defaultOptions
  simp only [Option.map_some, ne_eq, not_true_eq_false, if_false, if_true]
  exact ⟨_, rfl⟩

/-- C90 is violated: whenever AddWatermark fails, whatever the options and the state, the page is left with one more saved state than before, and
with the translation (and rotation) of the watermark in force for all that is drawn later. -/
theorem C90_failure_unbalanced_violated (g : Geo F) (A : Arith F) (fonts : Option (Map Bytes Enc.Decoder)) (width height : F) (w : Writer)
    (p : Builder.Page) (o : Options F) (w' : Writer) (p' : Builder.Page) (calls : List (Content.Call F))
    (h : addWatermark g width height w p o = some (w', p', calls, false)) (s : Spec.Content.Page F) :
    (calls.foldl (exec A fonts) s).stack = s.gs :: s.stack := by
  unfold addWatermark at h
  cases hm : markHead g width height o with
  | none => rw [hm] at h; simp at h
  | some head =>
    rw [hm] at h
    simp only [Option.map_some, Option.some.injEq] at h
    have hcalls : calls = head := by
      split at h
      · split at h
        · simp only [Prod.mk.injEq, and_true] at h
          exact h.2.2.symm
        · simp at h
      · split at h
        · simp only [Prod.mk.injEq, and_true] at h
          exact h.2.2.symm
        · simp at h
    subst hcalls
    unfold markHead at hm
    cases hc : o.color with
    | none => rw [hc] at hm; simp at hm
    | some rgb =>
      rw [hc] at hm
      simp only [Option.map_some, Option.some.injEq] at hm
      rw [← hm, List.foldl_append]
      by_cases hz : g.isZero o.angle
      · rw [if_pos hz]
        split <;> simp [exec, Spec.Content.Page.setPaint]
      · rw [if_neg hz]
        split <;> simp [exec, Spec.Content.Page.setPaint]

/-- C90 is violated: options without a colour make AddWatermark panic (a nil pointer), although the documentation gives a default. -/
theorem C90_no_colour_panics_violated (g : Geo F) (width height : F) (w : Writer) (p : Builder.Page) (o : Options F) :
    addWatermark g width height w p o = none ↔ o.color = none := by
  unfold addWatermark markHead
  cases o.color <;> simp

/-- C90 is violated: an image watermark is drawn under the key of the page's image map, which has no slash, so that the operand of `Do` is not a
name (the names that AddImage returns have a slash, and are not found). -/
theorem C90_image_without_slash_violated (g : Geo F) (fmt : F → Bytes) (width height : F) (w : Writer) (p : Builder.Page) (o : Options F) (w' : Writer)
    (p' : Builder.Page) (calls : List (Content.Call F)) (hn : o.imageName ≠ []) (hs : ¬ b!"/" <+: o.imageName)
    (h : addWatermark g width height w p o = some (w', p', calls, true)) :
    ∃ c ∈ calls, Content.render fmt c = o.imageName ++ b!" Do" ∧ ¬ b!"/" <+: Content.render fmt c := by
  unfold addWatermark markHead at h
  cases hc : o.color with
  | none => rw [hc] at h; simp at h
  | some rgb =>
    rw [hc] at h
    simp only [Option.map_some, Option.some.injEq] at h
    rw [if_pos hn] at h
    split at h
    · simp at h
    · simp only [Prod.mk.injEq, and_true] at h
      refine ⟨.drawImage o.imageName, by rw [← h.2.2]; simp, rfl, ?_⟩
      rintro ⟨t, ht⟩
      apply hs
      cases hi : o.imageName with
      | nil => exact absurd hi hn
      | cons x xs =>
        show [47] <+: x :: xs
        have hx : (b!"/" ++ t : Bytes) = (x :: xs) ++ b!" Do" := by rw [ht, ← hi]; rfl
        simp only [List.cons_append, List.nil_append, List.cons.injEq] at hx
        rw [← hx.1]
        exact ⟨xs, rfl⟩

/-- C90 is violated: the name that AddImage returns (with its slash) is not found by AddWatermark. -/
theorem C90_image_name_with_slash_violated (p : Builder.Page) (name : Bytes) (num : Int) (hn : p.images.get (Builder.addImage p name num).2 = none) :
    ((Builder.addImage p name num).1.images.get (Builder.addImage p name num).2) = none := by
  unfold Builder.addImage at *
  simp only at *
  rw [Map.get_set, if_neg]
  · exact hn
  · intro e
    have := congrArg List.length e
    simp at this

end Watermark

end Pdfer.Props
