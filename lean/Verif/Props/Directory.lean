import Verif.Model.Directory
import Verif.Proofs.GoLib

/-! C115, C116: extracting a document to a directory, with failures and crashes at any point. -/

namespace Pdfer.Props

open Pdfer.Go Pdfer.Directory

theorem takeWhile_digits {a b : Bytes} {c : UInt8} (ha : ∀ x ∈ a, isDigit x = true) (hc : isDigit c = false) :
    (a ++ c :: b).takeWhile isDigit = a := by
  induction a with
  | nil => simp [hc]
  | cons x a ih => simp [ha x (by simp), ih fun y hy => ha y (by simp [hy])]

theorem ext_dot (f : Bytes) : ∃ r, ext f = 46 :: r := by
  unfold ext
  repeat' split
  all_goals exact ⟨_, rfl⟩

theorem fileName_inj {i j : Nat} {f g : Bytes} (h : fileName i f = fileName j g) : i = j := by
  unfold fileName at h
  rw [List.append_assoc, List.append_assoc] at h
  have h := List.append_cancel_left h
  obtain ⟨r, hr⟩ := ext_dot f
  obtain ⟨s, hs⟩ := ext_dot g
  rw [hr, hs] at h
  have h := congrArg (List.takeWhile isDigit) h
  rw [takeWhile_digits (padDec_digits _ _) (by decide), takeWhile_digits (padDec_digits _ _) (by decide)] at h
  have := congrArg digitsVal h
  rw [digitsVal_padDec, digitsVal_padDec] at this
  omega

theorem imagePath_inj {i j : Nat} {f g : Bytes} (h : b!"images/" ++ fileName i f = b!"images/" ++ fileName j g) : i = j :=
  fileName_inj (List.append_cancel_left h)

theorem imagePath_content (i : Nat) (f : Bytes) : b!"images/" ++ fileName i f ≠ b!"content.json" := by
  intro h
  have := congrArg List.head? h
  simp at this

/-- The file written. -/
def Eff.path : Eff → Option Bytes
  | .mkdir => none
  | .write p _ _ => some p

theorem applyAll_other (l : List Eff) (files : Map Bytes Bytes) (p : Bytes) (h : ∀ e ∈ l, Eff.path e ≠ some p) :
    (applyAll files l).get p = files.get p := by
  induction l generalizing files with
  | nil => rfl
  | cons e l ih =>
    show (applyAll (apply files e) l).get p = _
    rw [ih _ fun x hx => h x (by simp [hx])]
    cases e with
    | mkdir => rfl
    | write q d n =>
      have := h (.write q d n) (by simp)
      simp only [apply, Eff.path, ne_eq, Option.some.injEq] at *
      rw [Map.get_set, if_neg (fun h => this h.symm)]

theorem images_paths {R : Type} (fs : Fs) (l : List (Img R)) (i : Nat) :
    ∀ e ∈ (images fs i l).1, ∃ j f, i ≤ j ∧ Eff.path e = some (b!"images/" ++ fileName j f) := by
  induction l generalizing i with
  | nil => simp [images]
  | cons img l ih =>
    have ih' : ∀ e ∈ (images fs (i + 1) l).1, ∃ j f, i ≤ j ∧ Eff.path e = some (b!"images/" ++ fileName j f) := by
      intro e he
      obtain ⟨j, f, hj, hp⟩ := ih (i + 1) e he
      exact ⟨j, f, by omega, hp⟩
    unfold images
    simp only
    split
    · exact ih'
    · split
      · intro e he
        rcases List.mem_cons.1 he with rfl | he
        · exact ⟨i, img.format, Nat.le_refl _, rfl⟩
        · exact ih' e he
      · intro e he
        rcases List.mem_cons.1 he with rfl | he
        · exact ⟨i, img.format, Nat.le_refl _, rfl⟩
        · exact ih' e he

/-- A reference says of an image what it is, and where its data is. -/
def Refers {R : Type} (files : Map Bytes Bytes) (r : ImgRef R) (img : Img R) : Prop :=
  r.id = img.id ∧ r.format = img.format ∧ r.rest = img.rest ∧ r.size = img.data.length ∧ img.data ≠ [] ∧ files.get r.filename = some img.data

theorem images_refer {R : Type} (fs : Fs) (l : List (Img R)) (i : Nat) (files : Map Bytes Bytes) :
    (∀ r ∈ (images fs i l).2, ∃ img ∈ l, Refers (applyAll files (images fs i l).1) r img) ∧
    (∀ r ∈ (images fs i l).2, ∃ j f, i ≤ j ∧ r.filename = b!"images/" ++ fileName j f) ∧
    ((images fs i l).2.map (·.filename)).Nodup := by
  induction l generalizing i files with
  | nil => simp [images]
  | cons img l ih =>
    by_cases hd : img.data = []
    · have e : images fs i (img :: l) = images fs (i + 1) l := by simp [images, hd]
      rw [e]
      obtain ⟨h1, h2, h3⟩ := ih (i + 1) files
      refine ⟨fun r hr => ?_, fun r hr => ?_, h3⟩
      · obtain ⟨m, hm, h⟩ := h1 r hr
        exact ⟨m, by simp [hm], h⟩
      · obtain ⟨j, f, hj, h⟩ := h2 r hr
        exact ⟨j, f, by omega, h⟩
    · cases hf : fs.image i with
      | some n =>
        have e : images fs i (img :: l) = (.write (b!"images/" ++ fileName i img.format) img.data (min n img.data.length) :: (images fs (i + 1) l).1, (images fs (i + 1) l).2) := by
          simp [images, hd, hf]
        rw [e]
        obtain ⟨h1, h2, h3⟩ := ih (i + 1) (apply files (.write (b!"images/" ++ fileName i img.format) img.data (min n img.data.length)))
        refine ⟨fun r hr => ?_, fun r hr => ?_, h3⟩
        · obtain ⟨m, hm, h⟩ := h1 r hr
          exact ⟨m, by simp [hm], h⟩
        · obtain ⟨j, f, hj, h⟩ := h2 r hr
          exact ⟨j, f, by omega, h⟩
      | none =>
        have e : images fs i (img :: l) = (.write (b!"images/" ++ fileName i img.format) img.data img.data.length :: (images fs (i + 1) l).1,
            { id := img.id, filename := b!"images/" ++ fileName i img.format, format := img.format, size := img.data.length, rest := img.rest } :: (images fs (i + 1) l).2) := by
          simp [images, hd, hf]
        rw [e]
        obtain ⟨h1, h2, h3⟩ := ih (i + 1) (apply files (.write (b!"images/" ++ fileName i img.format) img.data img.data.length))
        refine ⟨fun r hr => ?_, fun r hr => ?_, ?_⟩
        · rcases List.mem_cons.1 hr with rfl | hr
          · refine ⟨img, by simp, rfl, rfl, rfl, rfl, hd, ?_⟩
            show (applyAll (apply files _) (images fs (i + 1) l).1).get (b!"images/" ++ fileName i img.format) = _
            rw [applyAll_other]
            · simp only [apply]
              rw [Map.get_set, if_pos rfl, List.take_length]
            · intro x hx hc
              obtain ⟨j, f, hj, hp⟩ := images_paths fs l (i + 1) x hx
              rw [hp] at hc
              have := imagePath_inj (Option.some.inj hc)
              omega
          · obtain ⟨m, hm, h⟩ := h1 r hr
            exact ⟨m, by simp [hm], h⟩
        · rcases List.mem_cons.1 hr with rfl | hr
          · exact ⟨i, img.format, Nat.le_refl _, rfl⟩
          · obtain ⟨j, f, hj, h⟩ := h2 r hr
            exact ⟨j, f, by omega, h⟩
        · simp only [List.map_cons, List.nodup_cons]
          refine ⟨?_, h3⟩
          intro hm
          obtain ⟨r, hr, hrf⟩ := List.mem_map.1 hm
          obtain ⟨j, f, hj, h⟩ := h2 r hr
          rw [h] at hrf
          have := imagePath_inj hrf
          omega

/-- Which images are kept: those with data whose file could be written, with their positions. -/
def kept {R : Type} (fs : Fs) (imgs : List (Img R)) : List (Img R) :=
  (imgs.zipIdx.filter fun e => e.1.data ≠ [] ∧ fs.image e.2 = none).map (·.1)

theorem images_kept {R : Type} (fs : Fs) (l : List (Img R)) (i : Nat) :
    (images fs i l).2.map (fun r => (r.id, r.format, r.size)) =
      ((l.zipIdx i).filter fun e => e.1.data ≠ [] ∧ fs.image e.2 = none).map fun e => (e.1.id, e.1.format, e.1.data.length) := by
  induction l generalizing i with
  | nil => rfl
  | cons img l ih =>
    have ih := ih (i + 1)
    by_cases hd : img.data = []
    · have e : images fs i (img :: l) = images fs (i + 1) l := by simp [images, hd]
      rw [e, ih]
      simp [List.zipIdx_cons, hd]
    · cases hf : fs.image i with
      | some n =>
        have e : (images fs i (img :: l)).2 = (images fs (i + 1) l).2 := by simp [images, hd, hf]
        rw [e, ih]
        simp [List.zipIdx_cons, hf]
      | none =>
        have e : (images fs i (img :: l)).2 = { id := img.id, filename := b!"images/" ++ fileName i img.format, format := img.format, size := img.data.length, rest := img.rest } :: (images fs (i + 1) l).2 := by
          simp [images, hd, hf]
        rw [e, List.map_cons, ih]
        simp [List.zipIdx_cons, hf, hd]

/-- C115: what a successful run leaves: content.json is the description of the document; its images are, in order, the images of the document that
have data and whose file could be written; every one is described as it is, and the file it names, a different one for each, holds exactly
its data; the pages are those of the document, and the summary there counts them, the images and the bookmarks, as the result does. -/
theorem C115_written {R : Type} (fs : Fs) (json : Content R → Option Bytes) (pages : List (Pg R)) (bm : Nat) (imgs : Option (List (Img R)))
    (files : Map Bytes Bytes) (effs : List Eff) (out : Output)
    (h : extractToDirectory fs json (some (pages, bm)) imgs = (effs, some out)) :
    ∃ c j, json c = some j ∧ c.pages = pages ∧ (applyAll files effs).get b!"content.json" = some j ∧
      c.images.map (fun r => (r.id, r.format, r.size)) = (kept fs (imgs.getD [])).map (fun i => (i.id, i.format, i.data.length)) ∧
      (∀ r ∈ c.images, ∃ img ∈ imgs.getD [], Refers (applyAll files effs) r img) ∧
      (c.images.map (·.filename)).Nodup ∧ out.imageFiles = c.images.map (·.filename) ∧
      c.summary.pageCount = pages.length ∧ c.summary.imageCount = (imgs.getD []).length ∧ (c.summary.hasImages = true ↔ imgs.getD [] ≠ []) ∧
      (c.summary.hasBookmarks = true ↔ bm ≠ 0) ∧
      c.summary.textCharCount = out.textCharCount ∧ c.summary.hasText = out.hasText ∧ c.summary.isScanned = out.isScanned ∧ c.summary.hasImages = out.hasImages := by
  unfold extractToDirectory at h
  split at h
  · simp at h
  · simp only at h
    generalize imgs.getD [] = all at *
    split at h
    · simp at h
    · rename_i j hj
      split at h
      · simp at h
      · simp only [Prod.mk.injEq, Option.some.injEq] at h
        obtain ⟨rfl, rfl⟩ := h
        obtain ⟨h1, h2, h3⟩ := images_refer fs all 0 (applyAll files [.mkdir, .mkdir])
        have e : applyAll files ([.mkdir, .mkdir] ++ (images fs 0 all).1 ++ [.write b!"content.json" j j.length]) =
            (applyAll (applyAll files [.mkdir, .mkdir]) (images fs 0 all).1).set b!"content.json" j := by
          simp only [applyAll, List.foldl_append, List.foldl_cons, List.foldl_nil, apply, List.take_length]
        refine ⟨_, j, hj, rfl, ?_, ?_, ?_, h3, rfl, rfl, rfl, by simp only [summary]; cases all <;> simp, by simp only [summary, decide_eq_true_eq]; omega, rfl, rfl, rfl, rfl⟩
        · rw [e, Map.get_set, if_pos rfl]
        · rw [images_kept]
          simp [kept]
        · intro r hr
          obtain ⟨img, hm, a1, a2, a3, a4, a5, a6⟩ := h1 r hr
          refine ⟨img, hm, a1, a2, a3, a4, a5, ?_⟩
          obtain ⟨k, f, _, hk⟩ := h2 r hr
          rw [e, Map.get_set, if_neg (by rw [hk]; exact imagePath_content k f), a6]

/-- C115: no other file of the directory is touched, whether the run succeeds or not: only content.json and files in images that are named by a
position. -/
theorem C115_others {R : Type} (fs : Fs) (json : Content R → Option Bytes) (doc : Option (List (Pg R) × Nat)) (imgs : Option (List (Img R)))
    (files : Map Bytes Bytes) (p : Bytes) (hp : p ≠ b!"content.json") (hq : ∀ i f, p ≠ b!"images/" ++ fileName i f) :
    (applyAll files (extractToDirectory fs json doc imgs).1).get p = files.get p := by
  apply applyAll_other
  intro e he hc
  have key : e = .mkdir ∨ (∃ i, e ∈ (images fs i (imgs.getD [])).1) ∨ Eff.path e = some b!"content.json" := by
    revert he
    unfold extractToDirectory
    split
    · simp; exact fun h => Or.inl h
    · split
      · simp; exact fun h => Or.inl h
      · simp only
        split
        · intro he
          simp only [List.mem_append, List.mem_cons, List.not_mem_nil, or_false, or_self] at he
          rcases he with rfl | he
          · exact .inl rfl
          · exact .inr (.inl ⟨0, he⟩)
        · split <;>
          · intro he
            simp only [List.mem_append, List.mem_cons, List.not_mem_nil, or_false, or_self] at he
            rcases he with (rfl | he) | rfl
            · exact .inl rfl
            · exact .inr (.inl ⟨0, he⟩)
            · exact .inr (.inr rfl)
  rcases key with rfl | ⟨i, he⟩ | h
  · cases hc
  · obtain ⟨j, f, _, h⟩ := images_paths fs _ i e he
    rw [h] at hc
    exact hq j f (Option.some.inj hc).symm
  · rw [h] at hc
    exact hp (Option.some.inj hc).symm

/-- The cases of a split of a list with a last element. -/
theorem split_last {α : Type} {pre a b : List α} {x : α} (h : pre ++ [x] = a ++ b) : (a = pre ++ [x] ∧ b = []) ∨ ∃ c, pre = a ++ c := by
  rcases List.eq_nil_or_concat b with rfl | ⟨c, y, rfl⟩
  · exact .inl ⟨by simpa using h.symm, rfl⟩
  · right
    rw [List.concat_eq_append, ← List.append_assoc] at h
    exact ⟨c, (List.append_inj' h rfl).1⟩

/-- C116: wherever the run stops, by an error, a full disk or a crash, and however much of the last file was written: either content.json is as it
was before the run, or it is this run's, perhaps cut short, and then every image file it names is complete. -/
theorem C116_crash {R : Type} (fs : Fs) (json : Content R → Option Bytes) (doc : Option (List (Pg R) × Nat)) (imgs : Option (List (Img R)))
    (files state : Map Bytes Bytes) (h : CrashState files (extractToDirectory fs json doc imgs).1 state) :
    state.get b!"content.json" = files.get b!"content.json" ∨
    ∃ c j k, json c = some j ∧ state.get b!"content.json" = some (j.take k) ∧
      ∀ r ∈ c.images, ∃ img ∈ imgs.getD [], Refers state r img := by
  -- effects that do not touch content.json
  have quiet : ∀ l : List Eff, (∀ e ∈ l, Eff.path e ≠ some b!"content.json") → ∀ s, CrashState files l s → s.get b!"content.json" = files.get b!"content.json" := by
    intro l hl s hs
    cases hs with
    | between a b e => exact applyAll_other a files _ fun x hx => hl x (by rw [e]; simp [hx])
    | inside a b p d n k e hk =>
      have hp := hl (.write p d n) (by rw [e]; simp)
      simp only [Eff.path, ne_eq, Option.some.injEq] at hp
      rw [Map.get_set, if_neg (fun h => hp h.symm)]
      exact applyAll_other a files _ fun x hx => hl x (by rw [e]; simp [hx])
  have himg : ∀ e ∈ [Eff.mkdir, .mkdir] ++ (images fs 0 (imgs.getD [])).1, Eff.path e ≠ some b!"content.json" := by
    intro e he hc
    simp only [List.mem_append, List.mem_cons, List.not_mem_nil, or_false, or_self] at he
    rcases he with rfl | he
    · cases hc
    · obtain ⟨j, f, _, h⟩ := images_paths fs _ 0 e he
      rw [h] at hc
      exact imagePath_content j f (Option.some.inj hc)
  -- a run that reaches content.json
  have full : ∀ (c : Content R) (j : Bytes) (n : Nat) (hj : json c = some j) (hc : c.images = (images fs 0 (imgs.getD [])).2),
      CrashState files ([.mkdir, .mkdir] ++ (images fs 0 (imgs.getD [])).1 ++ [.write b!"content.json" j n]) state →
      state.get b!"content.json" = files.get b!"content.json" ∨
        ∃ c j k, json c = some j ∧ state.get b!"content.json" = some (j.take k) ∧ ∀ r ∈ c.images, ∃ img ∈ imgs.getD [], Refers state r img := by
    intro c j n hj hc hs
    have done : ∀ k, state = (applyAll files ([.mkdir, .mkdir] ++ (images fs 0 (imgs.getD [])).1)).set b!"content.json" (j.take k) →
        ∃ c j k, json c = some j ∧ state.get b!"content.json" = some (j.take k) ∧ ∀ r ∈ c.images, ∃ img ∈ imgs.getD [], Refers state r img := by
      intro k hst
      refine ⟨c, j, k, hj, by rw [hst, Map.get_set, if_pos rfl], ?_⟩
      intro r hr
      rw [hc] at hr
      obtain ⟨h1, h2, _⟩ := images_refer fs (imgs.getD []) 0 (applyAll files [.mkdir, .mkdir])
      obtain ⟨img, hm, a1, a2, a3, a4, a5, a6⟩ := h1 r hr
      refine ⟨img, hm, a1, a2, a3, a4, a5, ?_⟩
      obtain ⟨i, f, _, hk⟩ := h2 r hr
      rw [hst, Map.get_set, if_neg (by rw [hk]; exact imagePath_content i f), ← a6]
      simp only [applyAll, List.foldl_append]
    cases hs with
    | between a b e =>
      rcases split_last e with ⟨rfl, rfl⟩ | ⟨d, hd⟩
      · right
        refine done n ?_
        simp only [applyAll, List.foldl_append, List.foldl_cons, List.foldl_nil, apply]
      · left
        exact quiet _ himg _ (.between a d hd)
    | inside a b p d m k e hk =>
      rcases split_last e with ⟨h1, h2⟩ | ⟨x, hx⟩
      · cases h2
      · rcases x with _ | ⟨y, x⟩
        · have hl : .write p d m :: b = [Eff.write b!"content.json" j n] := by
            rw [hx] at e
            simp only [List.append_nil, List.append_assoc] at e
            exact (List.append_cancel_left e).symm
          simp only [List.cons.injEq, Eff.write.injEq] at hl
          obtain ⟨⟨rfl, rfl, rfl⟩, rfl⟩ := hl
          right
          refine done k ?_
          rw [hx, List.append_nil]
        · have hl : y = .write p d m := by
            rw [hx] at e
            simp only [List.append_assoc, List.cons_append] at e
            have := List.append_cancel_left e
            simp only [List.cons.injEq] at this
            exact this.1
          subst hl
          left
          exact quiet _ himg _ (.inside a x p d m k hx hk)
  unfold extractToDirectory at h
  split at h
  · left; exact quiet _ (by simp [Eff.path]) _ h
  · split at h
    · left; exact quiet _ (by simp [Eff.path]) _ h
    · simp only at h
      split at h
      · left; exact quiet _ himg _ h
      · rename_i j hj
        split at h
        · exact full _ j _ hj rfl h
        · exact full _ j _ hj rfl h

/-- C115: in a directory that had an extraction before, the run is not safe: for every earlier content.json and every document whose first image has
data, there is a point at which content.json is the earlier one while the file of the first image already holds the new document's image. -/
theorem C115_rerun_violated {R : Type} (fs : Fs) (hd : fs.dirs = true) (json : Content R → Option Bytes) (doc : List (Pg R) × Nat) (img : Img R) (imgs : List (Img R))
    (hi : img.data ≠ []) (h0 : fs.image 0 = none) (files : Map Bytes Bytes) :
    ∃ state, CrashState files (extractToDirectory fs json (some doc) (some (img :: imgs))).1 state ∧
      state.get b!"content.json" = files.get b!"content.json" ∧ state.get (b!"images/" ++ fileName 0 img.format) = some img.data := by
  have hw : ∃ rest, (images fs 0 (img :: imgs)).1 = .write (b!"images/" ++ fileName 0 img.format) img.data img.data.length :: rest := by
    simp [images, hi, h0]
  obtain ⟨rest, hw⟩ := hw
  have he : ∃ more, (extractToDirectory fs json (some doc) (some (img :: imgs))).1 =
      [.mkdir, .mkdir, .write (b!"images/" ++ fileName 0 img.format) img.data img.data.length] ++ more := by
    unfold extractToDirectory
    rw [if_neg (by simp [hd])]
    simp only [Option.getD_some]
    split
    · exact ⟨rest, by rw [hw]; rfl⟩
    · split <;> exact ⟨rest ++ _, by rw [hw]; rfl⟩
  obtain ⟨more, he⟩ := he
  refine ⟨_, .between _ more he, ?_, ?_⟩
  · simp only [applyAll, List.foldl_cons, List.foldl_nil, apply]
    rw [Map.get_set, if_neg (fun h => imagePath_content 0 img.format h.symm)]
  · simp only [applyAll, List.foldl_cons, List.foldl_nil, apply]
    rw [Map.get_set, if_pos rfl, List.take_length]

theorem foldl_len (l : List Bytes) (n : Nat) : l.foldl (fun n t => n + t.length) n = n + (l.flatten).length := by
  induction l generalizing n with
  | nil => simp
  | cons t l ih => simp only [List.foldl_cons]; rw [ih]; simp; omega

/-- C115: the counts: the number of pages, the bytes of all texts, and the number of images found; a document counts as scanned when it has
pages and images and not one text element. -/
theorem C115_counts {R : Type} (fs : Fs) (json : Content R → Option Bytes) (pages : List (Pg R)) (bm : Nat) (imgs : List (Img R)) (effs : List Eff) (out : Output)
    (h : extractToDirectory fs json (some (pages, bm)) (some imgs) = (effs, some out)) :
    out.pageCount = pages.length ∧ out.textCharCount = ((pages.map fun p => p.texts.flatten).flatten).length ∧ out.imageCount = imgs.length ∧
      (out.hasText = true ↔ ∃ p ∈ pages, p.texts ≠ []) ∧ (out.isScanned = true ↔ imgs ≠ [] ∧ pages ≠ [] ∧ ∀ p ∈ pages, p.texts = []) := by
  unfold extractToDirectory at h
  split at h
  · simp at h
  · simp only at h
    split at h
    · simp at h
    · split at h
      · simp at h
      · simp only [Prod.mk.injEq, Option.some.injEq, Option.getD_some] at h
        obtain ⟨_, rfl⟩ := h
        refine ⟨rfl, ?_, rfl, ?_, ?_⟩
        · simp only [summary]
          rw [foldl_len, Nat.zero_add]
          congr 1
          have key : ∀ l : List (Pg R), (List.flatMap (fun x => x.texts) l).flatten = (l.map fun p => p.texts.flatten).flatten := by
            intro l
            induction l with
            | nil => rfl
            | cons p ps ih => simp [ih]
          exact key pages
        · simp [summary]
        · simp only [summary]
          cases imgs <;> cases pages <;> simp

/-- C115: the number of images in the summary is not the number of image files: every image without data, and every one that could not be written,
is counted though no file has it and content.json does not list it. -/
theorem C115_count_violated {R : Type} (fs : Fs) (json : Content R → Option Bytes) (pages : List (Pg R)) (bm : Nat) (imgs : List (Img R)) (effs : List Eff) (out : Output)
    (h : extractToDirectory fs json (some (pages, bm)) (some imgs) = (effs, some out)) (img : Img R) (hm : img ∈ imgs) (hd : img.data = []) :
    out.imageFiles.length < out.imageCount := by
  obtain ⟨c, j, _, _, _, h1, _, _, h2, _⟩ := C115_written fs json pages bm (some imgs) [] effs out h
  obtain ⟨_, _, h3, _⟩ := C115_counts fs json pages bm imgs effs out h
  have := congrArg List.length h1
  simp only [List.length_map, kept, Option.getD_some] at this
  rw [h2, h3, List.length_map, this]
  have : imgs.zipIdx.length = imgs.length := by simp
  rw [← this]
  apply List.length_filter_lt_length_iff_exists.2
  obtain ⟨i, hi, he⟩ := List.mem_iff_getElem.1 hm
  refine ⟨(img, i), ?_, by simp [hd]⟩
  rw [List.mem_iff_getElem]
  exact ⟨i, by simpa using hi, by simp [he]⟩

/-! ### An example -/

/-- Two images, one without data; the file system does everything. -/
def dirImgs : List (Img Unit) := [⟨b!"Im1", b!"jpeg", b!"abc", ()⟩, ⟨b!"Im2", b!"raw", [], ()⟩, ⟨b!"Im3", b!"x", b!"d", ()⟩]

/-- A file system without errors. -/
def goodFs : Fs := { dirs := true, image := fun _ => none, content := none }

example : (extractToDirectory goodFs (fun c => some (c.images.flatMap (·.filename))) (some ([⟨1, [b!"t"], [], ()⟩], 0)) (some dirImgs)).2.map (fun o => (o.imageFiles, o.imageCount)) =
    some ([b!"images/image_001.jpg", b!"images/image_003.bin"], 3) := by decide +kernel

end Pdfer.Props
