import Verif.Proofs.Forms
import Verif.Proofs.ObjStm

/-! Rebuilding object streams. -/

namespace Pdfer.Forms

open Pdfer.Go Pdfer.XRefStream Pdfer.Spec Pdfer.Spec.Forms

theorem hdrEntries_conforming (objs : List (Nat × Bytes)) (hn : ∀ e ∈ objs, e.1 < 2 ^ 63)
    (hl : (objStream objs).2.length < 2 ^ 63) :
    hdrEntries objs.length (objHeader objs ++ b!" ") =
      (objs.zip (objOffsets 0 (objs.map (·.2)))).map (fun e => ((e.1.1 : Int), (e.2 : Int))) := by
  have hpl : (objStream objs).2 = (objHeader objs ++ b!" ") ++ spaced (objs.map (·.2)) := rfl
  have hpairs : headerPairs (fields (objHeader objs ++ b!" ")) =
      (objs.zip (objOffsets 0 (objs.map (·.2)))).map (fun e => ((e.1.1 : Int), (e.2 : Int))) := by
    have e : objHeader objs = spaced (((objs.zip (objOffsets 0 (objs.map (·.2)))).map (fun e => (e.1.1, e.2))).flatMap
        (fun e => [natDec e.1, natDec e.2])) := by
      unfold objHeader
      rw [List.flatMap_map]
    rw [e, (fields_spaced _ (digit_words _)).2, headerPairs_flat, List.map_map]
    · rfl
    · intro x hx
      obtain ⟨y, hy, rfl⟩ := List.mem_map.1 hx
      obtain ⟨y1, y2⟩ := List.of_mem_zip hy
      have a := hn _ y1
      have b := objOffsets_le 0 _ _ y2
      rw [hpl, List.length_append] at hl
      simp only at a b ⊢
      omega
  unfold hdrEntries
  rw [hpairs, List.take_of_length_le]
  rw [List.length_map, List.length_zip]
  omega

theorem streamObjects_spaced (first : Nat) (objs : List (Nat × Bytes)) : ∀ (P : Bytes) (o : Nat) (m : Map Int Bytes),
    P.length = first + o →
    streamObjects first (P ++ spaced (objs.map (·.2)))
      ((objs.zip (objOffsets o (objs.map (·.2)))).map (fun e => ((e.1.1 : Int), (e.2 : Int)))) m =
    .ok (objs.foldl (fun m e => m.set (e.1 : Int) (rstrip e.2)) m) := by
  induction objs with
  | nil => intro P o m _; rfl
  | cons e objs ih =>
    intro P o m hP
    cases objs with
    | nil =>
      simp only [List.map_cons, List.map_nil, objOffsets, List.zip_cons_cons, List.zip_nil_right, spaced, streamObjects,
        List.foldl_cons, List.foldl_nil]
      rw [if_pos ⟨by omega, by simp; omega, by simp⟩]
      congr 2
      have h1 : ((first : Int) + (o : Int)).toNat = P.length := by omega
      rw [h1, Int.toNat_natCast, List.take_of_length_le (Nat.le_refl _), List.drop_left]
      rfl
    | cons e2 objs =>
      have hsp : P ++ spaced ((e :: e2 :: objs).map (·.2)) = (P ++ e.2 ++ b!" ") ++ spaced ((e2 :: objs).map (·.2)) := by
        simp [spaced]
      have hih := ih (P ++ e.2 ++ b!" ") (o + e.2.length + 1) (m.set (e.1 : Int) (rstrip e.2))
        (by simp [hP]; omega)
      rw [List.foldl_cons, ← hih, hsp]
      simp only [List.map_cons, objOffsets, List.zip_cons_cons, streamObjects]
      rw [if_pos (by
        refine ⟨by omega, by omega, ?_⟩
        simp [hP]; omega)]
      have hcut : ((P ++ e.2 ++ b!" " ++ spaced (e2.2 :: objs.map (·.2))).take ((first : Int) + ((o + e.2.length + 1 : Nat) : Int)).toNat).drop
          ((first : Int) + (o : Int)).toNat = e.2 ++ b!" " := by
        rw [show ((first : Int) + ((o + e.2.length + 1 : Nat) : Int)).toNat = (P ++ e.2 ++ b!" ").length by simp [hP]; omega,
          show ((first : Int) + (o : Int)).toNat = P.length by omega, List.take_left, List.append_assoc, List.drop_left]
      rw [hcut, trimRight_space]
      rfl

/-- The objects after the update, in the order of the stream. -/
def updated (objs : List (Nat × Bytes)) (updates : Map Int Bytes) : List (Nat × Bytes) :=
  objs.map fun e => (e.1, (updates.get e.1).getD (rstrip e.2))

theorem foldl_set_get (objs : List (Nat × Bytes)) : ∀ (m : Map Int Bytes), (objs.map (·.1)).Nodup → ∀ e ∈ objs,
    (objs.foldl (fun m e => m.set (e.1 : Int) (rstrip e.2)) m).get e.1 = some (rstrip e.2) := by
  have hother : ∀ (objs : List (Nat × Bytes)) (m : Map Int Bytes) (k : Nat), k ∉ objs.map (·.1) →
      (objs.foldl (fun m e => m.set (e.1 : Int) (rstrip e.2)) m).get (k : Int) = m.get (k : Int) := by
    intro objs
    induction objs with
    | nil => intro m k _; rfl
    | cons f objs ih =>
      intro m k hk
      rw [List.foldl_cons, ih _ _ (fun h => hk (by simp [h])), Map.get_set_ne]
      intro e
      apply hk
      simp [Int.ofNat_inj.1 e]
  induction objs with
  | nil => intro m _ e he; simp at he
  | cons f objs ih =>
    intro m hnd e he
    rw [List.map_cons, List.nodup_cons] at hnd
    rw [List.foldl_cons]
    rcases List.mem_cons.1 he with rfl | he
    · rw [hother _ _ _ hnd.1, Map.get_set_eq]
    · exact ih _ hnd.2 e he

theorem foldl_updates_get (updates : Map Int Bytes) (hu : updates.keys.Nodup) (m : Map Int Bytes) (k : Int) :
    (updates.foldl (fun m u => m.set u.1 u.2) m).get k = (updates.get k).or (m.get k) := by
  induction updates generalizing m with
  | nil => simp [Map.get]
  | cons u us ih =>
    rw [Map.keys, List.map_cons, List.nodup_cons] at hu
    rw [List.foldl_cons, ih hu.2]
    by_cases hk : u.1 = k
    · subst hk
      have : Map.get us u.1 = none := by
        unfold Map.get
        rw [Option.map_eq_none_iff, List.find?_eq_none]
        intro x hx hxe
        apply hu.1
        simp only [decide_eq_true_eq] at hxe
        rw [← hxe]
        exact List.mem_map_of_mem hx
      rw [this, Map.get_set_eq]
      simp [Map.get]
    · rw [Map.get_set_ne _ _ (Ne.symm hk)]
      congr 1
      simp [Map.get, List.find?_cons, hk]

theorem renderObjects_eq (m : Map Int Bytes) (objs : List (Nat × Bytes)) (g : Nat × Bytes → Bytes)
    (hm : ∀ e ∈ objs, (m.get (e.1 : Int)).getD [] = g e) (offs : List Nat) (hlen : offs.length = objs.length) : ∀ o,
    renderObjects m o ((objs.zip offs).map (fun e => ((e.1.1 : Int), (e.2 : Int)))) =
      (objs.flatMap (fun e => g e ++ b!"\n"),
        (objs.zip (objOffsets o (objs.map g))).flatMap (fun e => natDec e.1.1 ++ b!" " ++ natDec e.2 ++ b!" ")) := by
  induction objs generalizing offs with
  | nil => intro o; simp [renderObjects]
  | cons e objs ih =>
    intro o
    cases offs with
    | nil => simp at hlen
    | cons x offs =>
      simp only [List.zip_cons_cons, List.map_cons, renderObjects, objOffsets, List.flatMap_cons]
      rw [ih (fun f hf => hm f (by simp [hf])) offs (by simpa using hlen), hm e (by simp)]
      simp only [List.append_assoc, Prod.mk.injEq, true_and]
      rfl

theorem rebuild_conforming (objs : List (Nat × Bytes)) (updates : Map Int Bytes) (hn : ∀ e ∈ objs, e.1 < 2 ^ 63)
    (hl : (objStream objs).2.length < 2 ^ 63) (hd : (objs.map (·.1)).Nodup) (hu : updates.keys.Nodup) :
    rebuildContent objs.length (objStream objs).1 (objStream objs).2 updates =
      .ok ((updated objs updates).flatMap (fun e => e.2 ++ b!"\n"),
        ((updated objs updates).zip (objOffsets 0 ((updated objs updates).map (·.2)))).flatMap
          (fun e => natDec e.1.1 ++ b!" " ++ natDec e.2 ++ b!" ")) := by
  have hpl : (objStream objs).2 = (objHeader objs ++ b!" ") ++ spaced (objs.map (·.2)) := rfl
  have hfirst : (objStream objs).1 = (objHeader objs ++ b!" ").length := by simp [objStream]
  unfold rebuildContent
  rw [show sliceTo (objStream objs).2 (objStream objs).1 = .ok (objHeader objs ++ b!" ") by
      unfold sliceTo; rw [hpl, hfirst, if_pos (by simp), List.take_left]]
  simp only [Res.bind]
  rw [hdrEntries_conforming objs hn hl, hpl, streamObjects_spaced _ objs _ 0 [] (by rw [hfirst]; rfl)]
  simp only
  rw [renderObjects_eq _ objs (fun e => (updates.get e.1).getD (rstrip e.2)) _ _ (by rw [objOffsets_length]; simp)]
  · congr 1
    unfold updated
    rw [List.map_map, Prod.mk.injEq]
    refine ⟨by rw [List.flatMap_map], ?_⟩
    rw [List.zip_map_left, List.flatMap_map]
    rfl
  · intro e he
    rw [foldl_updates_get _ hu, foldl_set_get _ _ hd e he]
    cases updates.get (e.1 : Int) <;> rfl

/-- In the rebuilt data every object stands at its offset, followed by a newline. -/
theorem lines_at (cs : List Bytes) : ∀ (o : Nat) (P : Bytes), P.length = o → ∀ (i : Nat) (c : Bytes) (off : Nat), cs[i]? = some c →
    (objOffsets o cs)[i]? = some off → c ++ b!"\n" <+: (P ++ cs.flatMap (fun c => c ++ b!"\n")).drop off := by
  induction cs with
  | nil => intro o P _ i c off h; simp at h
  | cons d cs ih =>
    intro o P hP i c off h ho
    cases i with
    | zero =>
      simp only [objOffsets, List.getElem?_cons_zero, Option.some.injEq] at h ho
      subst h; subst ho
      rw [← hP, List.drop_left]
      simp
    | succ i =>
      simp only [objOffsets, List.getElem?_cons_succ] at h ho
      have := ih (o + d.length + 1) (P ++ d ++ b!"\n") (by simp [hP]; omega) i c off h ho
      simpa using this

theorem trail_spaced (l : List (Nat × Nat)) (hl : l ≠ []) :
    l.flatMap (fun e => natDec e.1 ++ b!" " ++ natDec e.2 ++ b!" ") =
      spaced (l.flatMap (fun e => [natDec e.1, natDec e.2])) ++ b!" " := by
  induction l with
  | nil => exact absurd rfl hl
  | cons e l ih =>
    cases l with
    | nil => simp [spaced]
    | cons e2 l =>
      rw [List.flatMap_cons, ih (by simp)]
      simp [spaced]

theorem trail_fields (l : List (Nat × Nat)) (h : ∀ e ∈ l, e.1 ≤ 9223372036854775807 ∧ e.2 ≤ 9223372036854775807) :
    headerPairs (fields (l.flatMap (fun e => natDec e.1 ++ b!" " ++ natDec e.2 ++ b!" "))) =
      l.map (fun e => ((e.1 : Int), (e.2 : Int))) := by
  by_cases hl : l = []
  · subst hl; rfl
  · rw [trail_spaced l hl, (fields_spaced _ (digit_words _)).2, headerPairs_flat l h]

theorem objOffsets_lines (cs : List Bytes) : ∀ o x, x ∈ objOffsets o cs → x < o + (cs.flatMap (fun c => c ++ b!"\n")).length := by
  induction cs with
  | nil => intro o x h; simp [objOffsets] at h
  | cons c cs ih =>
    intro o x h
    simp only [objOffsets, List.mem_cons] at h
    rw [List.flatMap_cons, List.length_append, List.length_append]
    rcases h with rfl | h
    · simp
    · have := ih _ _ h
      simp only [List.length_cons, List.length_nil] at *
      omega

end Pdfer.Forms
