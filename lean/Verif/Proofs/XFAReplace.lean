import Verif.Spec.XFA
import Verif.Proofs.XFAUpdate
import Verif.Proofs.Fill
import Verif.Proofs.BuilderText

/-! Proofs about the replacement of a stream. -/

namespace Pdfer.XFA

open Pdfer.Go Pdfer.Spec Pdfer.Spec.XFA Pdfer.Document Pdfer.Incremental Pdfer.Crypto

/-- An append that fits the array. -/
theorem append_fits {arr x : Bytes} {l : Nat} {src : Bytes} (hx : arr.take l = x) (hf : l + src.length ≤ arr.length) :
    ∃ arr', append arr (.shared l) src = (.shared (l + src.length), arr') ∧ arr'.take (l + src.length) = x ++ src ∧ arr'.length = arr.length ∧
      ∀ m, l + src.length ≤ m → arr'.drop m = arr.drop m := by
  simp only [append]
  rw [if_pos hf]
  have hl : (arr.take l ++ src).length = l + src.length := by simp; omega
  refine ⟨_, rfl, ?_, ?_, ?_⟩
  · rw [List.take_append_of_le_length (by omega), List.take_of_length_le (by omega), hx]
  · simp; omega
  · intro m hm
    rw [List.drop_append, List.drop_eq_nil_of_le (by omega), List.nil_append, List.drop_drop, hl]
    congr 1
    omega

/-- When the digits of the new length need no more room than those of the old one and the new data ends before the old data did, or does
not fit the caller's array at all, the result is the text with both replaced. -/
theorem splice_ok (a D0 b O t spare new : Bytes) (hD : (natDec new.length).length ≤ D0.length)
    (hO : (natDec new.length).length + new.length ≤ D0.length + O.length ∨
      (a ++ D0 ++ b ++ O ++ t ++ spare).length < (a ++ natDec new.length ++ b ++ new).length) :
    (splice (a ++ D0 ++ b ++ O ++ t ++ spare) (a ++ D0 ++ b ++ O ++ t).length
      { lenStart := a.length, lenEnd := (a ++ D0).length, dataStart := (a ++ D0 ++ b).length, dataEnd := (a ++ D0 ++ b ++ O).length } new).1 =
      a ++ natDec new.length ++ b ++ new ++ t := by
  generalize hN : natDec new.length = D at hD hO
  generalize hA : a ++ D0 ++ b ++ O ++ t ++ spare = arr at hO
  have hlen : arr.length = a.length + D0.length + b.length + O.length + t.length + spare.length := by rw [← hA]; simp only [List.length_append]
  unfold splice
  rw [hN]
  obtain ⟨arr1, e1, t1, l1, d1⟩ := append_fits (arr := arr) (x := a) (l := a.length) (src := D)
    (by rw [← hA]; simp only [List.append_assoc]; exact List.take_left' rfl) (by omega)
  simp only [e1]
  have hb : (arr1.take (a ++ D0 ++ b).length).drop (a ++ D0).length = b := by
    rw [List.drop_take, d1 _ (by simp; omega), ← hA]
    have : (a ++ D0 ++ b ++ O ++ t ++ spare).drop (a ++ D0).length = b ++ (O ++ t ++ spare) := by
      have : a ++ D0 ++ b ++ O ++ t ++ spare = (a ++ D0) ++ (b ++ (O ++ t ++ spare)) := by simp
      rw [this]; exact List.drop_left' rfl
    rw [this]
    exact List.take_left' (by simp; omega)
  rw [hb]
  obtain ⟨arr2, e2, t2, l2, d2⟩ := append_fits (src := b) t1 (by omega)
  simp only [e2]
  rcases Nat.lt_or_ge arr.length (a.length + D.length + b.length + new.length) with hc | hc
  · have e3 : append arr2 (.shared (a.length + D.length + b.length)) new = (.own (a ++ D ++ b ++ new), arr2) := by
      simp only [append]
      rw [if_neg (by rw [l2, l1]; omega), t2]
    simp only [e3]
    have ht : (arr2.take (a ++ D0 ++ b ++ O ++ t).length).drop (a ++ D0 ++ b ++ O).length = t := by
      rw [List.drop_take, d2 _ (by simp; omega), d1 _ (by simp; omega), ← hA]
      have : (a ++ D0 ++ b ++ O ++ t ++ spare).drop (a ++ D0 ++ b ++ O).length = t ++ spare := by
        rw [List.append_assoc _ t]; exact List.drop_left' rfl
      rw [this]
      exact List.take_left' (by simp; omega)
    rw [ht]
    rfl
  · have hO' : D.length + new.length ≤ D0.length + O.length := by
      rcases hO with h | h
      · exact h
      · simp at h; omega
    obtain ⟨arr3, e3, t3, l3, d3⟩ := append_fits (src := new) t2 (by omega)
    simp only [e3]
    have ht : (arr3.take (a ++ D0 ++ b ++ O ++ t).length).drop (a ++ D0 ++ b ++ O).length = t := by
      rw [List.drop_take, d3 _ (by simp; omega), d2 _ (by simp; omega), d1 _ (by simp; omega), ← hA]
      have : (a ++ D0 ++ b ++ O ++ t ++ spare).drop (a ++ D0 ++ b ++ O).length = t ++ spare := by
        rw [List.append_assoc _ t]; exact List.drop_left' rfl
      rw [this]
      exact List.take_left' (by simp; omega)
    rw [ht]
    obtain ⟨arr4, e4, t4, -, -⟩ := append_fits (src := t) t3 (by omega)
    simp only [e4]
    exact t4

/-! ### Where it cuts -/

theorem searchAt_here {α : Type} {p : Bytes → Option α} {s : Bytes} {x : α} (h : p s = some x) : searchAt p s = some (0, x) := by
  cases s with
  | nil => simp [searchAt, h]
  | cons c s => simp [searchAt, h]

theorem searchAt_skip {α : Type} {p : Bytes → Option α} : ∀ {a s : Bytes}, (∀ x y, a = x ++ y → y ≠ [] → p (y ++ s) = none) →
    searchAt p (a ++ s) = (searchAt p s).map fun q => (q.1 + a.length, q.2)
  | [], s, _ => by simp
  | c :: a, s, h => by
    have h0 : p (c :: (a ++ s)) = none := h [] (c :: a) rfl (by simp)
    have ih := searchAt_skip (p := p) (a := a) (s := s) fun x y hxy hy => h (c :: x) y (by rw [hxy]; rfl) hy
    rw [List.cons_append, searchAt, h0]
    simp only [ih]
    cases searchAt p s <;> simp
    omega

theorem header0_text {n : Int} {s : Bytes} (h : reHeader0 n s ≠ none) : ∃ t, Spec.Forms.HeaderText n 0 t ∧ t <+: s := by
  unfold reHeader0 at h
  cases h1 : reLit (itoa n) s with
  | none => simp [h1] at h
  | some s1 =>
    cases h2 : reSp1 s1 with
    | none => simp [h1, h2] at h
    | some s2 =>
      cases h3 : reLit b!"0" s2 with
      | none => simp [h1, h2, h3] at h
      | some s3 =>
        cases h4 : reSp1 s3 with
        | none => simp [h1, h2, h3, h4] at h
        | some s4 =>
          cases h5 : reLit b!"obj" s4 with
          | none => simp [h1, h2, h3, h4, h5] at h
          | some s5 =>
            have e1 := Manipulate.reLit_some h1
            obtain ⟨w1, a1, b1, e2⟩ := Forms.reSp1_spec h2
            have e3 := Manipulate.reLit_some h3
            obtain ⟨w2, a2, b2, e4⟩ := Forms.reSp1_spec h4
            have e5 := Manipulate.reLit_some h5
            refine ⟨itoa n ++ w1 ++ itoa 0 ++ w2 ++ b!"obj", ⟨w1, w2, a1, b1, a2, b2, rfl⟩, s5, ?_⟩
            rw [e1, e2, e3, e4, e5]
            simp [show itoa 0 = b!"0" from by decide]

theorem header0_here (n : Int) (s : Bytes) : reHeader0 n (itoa n ++ b!" 0 obj" ++ s) = some () := by
  unfold reHeader0
  rw [List.append_assoc, reLit_append]
  rfl

/-- The search finds the parts. -/
theorem cuts_found {f : StreamFile} {n : Int} (h : f.WellFormed n) : replaceCuts (f.text n) n = some
    { lenStart := (f.front n).length, lenEnd := (f.front n ++ natDec f.length).length,
      dataStart := (f.front n ++ natDec f.length ++ f.middle).length,
      dataEnd := (f.front n ++ natDec f.length ++ f.middle ++ (f.data ++ b!"\n")).length } := by
  -- the object
  generalize hobj : itoa n ++ b!" 0 obj" ++ (f.dict1 ++ (b!"/Length " ++ (natDec f.length ++ (f.dict2 ++ (b!"stream" ++
    (f.eol ++ (f.data ++ b!"\n" ++ (b!"endstream" ++ f.rest)))))))) = obj
  have etext : f.text n = f.before ++ obj := by
    rw [← hobj]; unfold StreamFile.text StreamFile.front StreamFile.middle; simp
  have hdrop : (f.text n).drop f.before.length = obj := by rw [etext]; exact List.drop_left' rfl
  have hsearch : searchAt (reHeader0 n) (f.text n) = some (f.before.length, ()) := by
    rw [etext, searchAt_skip (a := f.before), searchAt_here (x := ())]
    · simp
    · rw [← hobj]; exact header0_here _ _
    · intro x y hxy hy
      cases hr : reHeader0 n (y ++ obj) with
      | none => rfl
      | some u =>
        obtain ⟨t, ht1, ht2⟩ := header0_text (n := n) (s := y ++ obj) (by rw [hr]; simp)
        exact absurd (by rw [hdrop]; exact ht2) (h.header x y t hxy hy ht1)
  -- the keyword
  generalize hdict : itoa n ++ b!" 0 obj" ++ (f.dict1 ++ (b!"/Length " ++ (natDec f.length ++ f.dict2))) = dict
  have eobj : obj = dict ++ (b!"stream" ++ (f.eol ++ (f.data ++ b!"\n" ++ (b!"endstream" ++ f.rest)))) := by
    rw [← hobj, ← hdict]; simp
  have hstream : index b!"stream" obj = some dict.length := by
    rw [eobj]
    have hst : ∀ t : Bytes, index b!"stream" (dict ++ (b!"stream" ++ t)) = some dict.length := by
      intro t
      have e : dict ++ (b!"stream" ++ t) = (itoa n ++ b!" 0 obj") ++ (f.dict1 ++ (b!"/Length " ++ (natDec f.length ++ (f.dict2 ++ (b!"stream" ++ t))))) := by
        rw [← hdict]; simp
      rw [e, index_avoid (avoid_append (avoid_head (not_mem_itoa _ (by decide) (by decide))) (avoid_clash (by decide)))]
      have n1 := (Incremental.absent_iff (pat := b!"stream") (by decide)).1 h.dict1.1
      have n2 := (Incremental.absent_iff (pat := b!"stream") (by decide)).1 h.dict2.1
      have e2 : index b!"stream" (f.dict1 ++ (b!"/Length " ++ (natDec f.length ++ (f.dict2 ++ (b!"stream" ++ t))))) =
          (index b!"stream" (b!"/Length " ++ (natDec f.length ++ (f.dict2 ++ (b!"stream" ++ t))))).map (· + f.dict1.length) := by
        have hA : Avoid b!"stream" (f.dict1 ++ b!"/") := Builder.avoid_sep (by decide) (by decide) (by
          rw [← Manipulate.noOcc_iff_infix]; exact n1)
        have e3 : f.dict1 ++ (b!"/Length " ++ (natDec f.length ++ (f.dict2 ++ (b!"stream" ++ t)))) =
          (f.dict1 ++ b!"/") ++ (b!"Length " ++ (natDec f.length ++ (f.dict2 ++ (b!"stream" ++ t)))) := by simp
        rw [e3, index_avoid hA]
        have e4 : b!"/Length " ++ (natDec f.length ++ (f.dict2 ++ (b!"stream" ++ t))) = b!"/" ++ (b!"Length " ++ (natDec f.length ++ (f.dict2 ++ (b!"stream" ++ t)))) := by simp
        rw [e4, index_avoid (a := b!"/") (avoid_clash (by decide))]
        cases index b!"stream" (b!"Length " ++ (natDec f.length ++ (f.dict2 ++ (b!"stream" ++ t)))) <;> simp
        omega
      rw [e2, index_avoid (a := b!"/Length ") (avoid_clash (by decide)), index_avoid (a := natDec f.length) (avoid_head (not_mem_natDec (by decide) _)),
        Manipulate.index_first (by decide) n2, ← hdict]
      simp
      omega
    exact hst _
  -- the length
  have htake : obj.take dict.length = dict := by rw [eobj]; exact List.take_left' rfl
  have hlen : searchAt reLength dict = some ((itoa n ++ b!" 0 obj" ++ f.dict1).length, (8, natDec f.length)) := by
    have e : dict = (itoa n ++ b!" 0 obj" ++ f.dict1) ++ (b!"/Length " ++ (natDec f.length ++ f.dict2)) := by rw [← hdict]; simp
    have hp : ∀ s, reLength s ≠ none → b!"/Length" <+: s := by
      intro s hs
      unfold reLength at hs
      cases h1 : reLit b!"/Length" s with
      | none => simp [h1] at hs
      | some r => exact ⟨r, (Manipulate.reLit_some h1).symm⟩
    have hno : NoOcc b!"/Length" (itoa n ++ b!" 0 obj" ++ f.dict1) := by
      have hi := (Incremental.absent_iff (pat := b!"/Length") (by decide)).1 h.dict1.2
      have : Avoid b!"/Length" (itoa n ++ b!" 0 obj") :=
        avoid_append (avoid_head (not_mem_itoa _ (by decide) (by decide))) (avoid_clash (by decide))
      rw [noOcc_iff_index, index_avoid this, noOcc_iff_index.1 hi]
      rfl
    rw [e, searchAt_skip, searchAt_here (x := (8, natDec f.length))]
    · simp
    · have : b!"/Length " ++ (natDec f.length ++ f.dict2) = b!"/Length" ++ (32 :: (natDec f.length ++ f.dict2)) := by simp
      rw [this]
      unfold reLength
      rw [reLit_append]
      have hsp : reSp1 (32 :: (natDec f.length ++ f.dict2)) = some (natDec f.length ++ f.dict2) := by
        apply reSp1_one
        intro c hc
        have := natDec_head _ _ c hc
        exact forall_byte (p := fun c => isDigit c = true → reSpace c = false) (by decide +kernel) c this
      have hnum := reNum_natDec (n := f.length) (s := f.dict2) fun c hc => by
        have := h.dict2.2 c hc
        simp only [isDigit]
        simpa [UInt8.le_iff_toNat_le] using this
      simp only [Option.bind_some, hsp, hnum, Option.map_some]
      congr 2
      simp
      omega
    · intro x y hxy hy
      cases hr : reLength (y ++ (b!"/Length " ++ (natDec f.length ++ f.dict2))) with
      | none => rfl
      | some u =>
        exfalso
        have hpre := hp _ (by rw [hr]; simp)
        have hy' : NoOcc b!"/Length" y := by rw [hxy] at hno; exact noOcc_suffix hno
        obtain ⟨c, y', rfl⟩ := List.exists_cons_of_ne_nil hy
        have := Manipulate.index_first (c := 47) (k := b!"Length") (pre := c :: y') (rest := b!" " ++ (natDec f.length ++ f.dict2)) (by decide) hy'
        have h0 : index b!"/Length" ((c :: y') ++ (b!"/Length " ++ (natDec f.length ++ f.dict2))) = some 0 := by
          obtain ⟨t, ht⟩ := hpre
          rw [← ht]
          exact idx_here _ _ (by decide)
        have e5 : (c :: y') ++ (b!"/Length " ++ (natDec f.length ++ f.dict2)) = (c :: y') ++ (b!"/Length" ++ (b!" " ++ (natDec f.length ++ f.dict2))) := by simp
        rw [e5] at h0
        rw [h0] at this
        simp at this
  -- the data
  have hws : ∀ c, objWs c = true ↔ (c = 32 ∨ c = 10 ∨ c = 13 ∨ c = 9) := by intro c; simp [objWs, or_assoc]
  obtain ⟨c0, hc0, hc1⟩ := h.data.2
  obtain ⟨d', hd'⟩ : ∃ d', f.data = c0 :: d' := by
    cases hd : f.data with
    | nil => rw [hd] at hc0; simp at hc0
    | cons x d => rw [hd] at hc0; simp at hc0; subst hc0; exact ⟨d, rfl⟩
  have htw : (f.eol ++ (f.data ++ b!"\n" ++ (b!"endstream" ++ f.rest))).takeWhile objWs = f.eol := by
    rw [hd']
    rw [List.takeWhile_append_of_pos (fun c hc => (hws c).2 (h.eol c hc))]
    simp [show objWs c0 = false from by rw [← Bool.not_eq_true, hws]; exact hc1]
  have hdata : index b!"endstream" (f.data ++ b!"\n" ++ (b!"endstream" ++ f.rest)) = some (f.data ++ b!"\n").length := by
    have hA : Avoid b!"endstream" (f.data ++ b!"\n") := Builder.avoid_sep (by decide) (by decide) (by
      rw [← Manipulate.noOcc_iff_infix]; exact (Incremental.absent_iff (by decide)).1 h.data.1)
    rw [index_avoid hA, idx_here _ _ (by decide)]
    simp
  have hdrop2 : (f.text n).drop (f.before.length + dict.length + 6) = f.eol ++ (f.data ++ b!"\n" ++ (b!"endstream" ++ f.rest)) := by
    rw [etext, eobj]
    have : f.before ++ (dict ++ (b!"stream" ++ (f.eol ++ (f.data ++ b!"\n" ++ (b!"endstream" ++ f.rest))))) =
      (f.before ++ dict ++ b!"stream") ++ (f.eol ++ (f.data ++ b!"\n" ++ (b!"endstream" ++ f.rest))) := by simp
    rw [this]
    exact List.drop_left' (by simp; omega)
  have hdrop3 : (f.text n).drop (f.before.length + dict.length + 6 + f.eol.length) = f.data ++ b!"\n" ++ (b!"endstream" ++ f.rest) := by
    rw [← List.drop_drop, hdrop2]; exact List.drop_left' rfl
  unfold replaceCuts
  rw [hsearch]
  simp only [Option.bind_some, hdrop, hstream, htake, hlen, hdrop2, htw, hdrop3, hdata, Option.map_some]
  congr 1
  have hdl : dict.length = (itoa n).length + 6 + f.dict1.length + 8 + (natDec f.length).length + f.dict2.length := by
    rw [← hdict]; simp; omega
  simp only [StreamFile.front, StreamFile.middle, List.length_append, List.length_cons, List.length_nil, hdl, Cuts.mk.injEq]
  omega

end Pdfer.XFA
