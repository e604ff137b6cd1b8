import Verif.Proofs.XFABuilt
import Verif.Proofs.XFASalvage

/-! The numeric length of a stream in the dictionary that the rebuilding reads. -/

namespace Pdfer.XFA

open Pdfer.Go Pdfer.Spec Pdfer.Forms

theorem trim_between (a b s : Bytes) (ha : ∀ c ∈ a, isSpace c = true) (hb : ∀ c ∈ b, isSpace c = true)
    (h1 : ∀ c, s.head? = some c → isSpace c = false) (h2 : ∀ c, s.getLast? = some c → isSpace c = false) : trimSpace (a ++ s ++ b) = s := by
  have hdrop : ∀ (x y : Bytes), (∀ c ∈ x, isSpace c = true) → (∀ c, y.head? = some c → isSpace c = false) → (x ++ y).dropWhile isSpace = y := by
    intro x y hx hy
    induction x with
    | nil =>
      cases y with
      | nil => rfl
      | cons c y => simp [hy c rfl]
    | cons c x ih => simp only [List.cons_append, List.dropWhile_cons, hx c (by simp), if_true]; exact ih fun d hd => hx d (by simp [hd])
  unfold trimSpace
  cases hs : s with
  | nil =>
    have : (a ++ [] ++ b).dropWhile isSpace = [] := by
      rw [List.append_nil]
      have := hdrop (a ++ b) [] (by simp only [List.mem_append]; rintro c (h | h); exacts [ha c h, hb c h]) (by simp)
      simpa using this
    rw [this]
    rfl
  | cons c t =>
    rw [← hs, List.append_assoc, hdrop a (s ++ b) ha (by rw [hs]; intro d hd; simp at hd; subst hd; exact h1 c (by rw [hs]; rfl)),
      List.reverse_append, hdrop b.reverse s.reverse (by simpa using hb) (by simpa [List.head?_reverse] using h2), List.reverse_reverse]

/-- The keys of two pieces of dictionary text, the second of which begins with a name. -/
theorem dictPairs_append (x r : Bytes) (hr : r.takeWhile reWord ≠ []) :
    (dictPairs (x ++ 47 :: r)).2 = (dictPairs x).2 ++ (dictPairs (47 :: r)).2 ∧ (dictPairs (x ++ 47 :: r)).1 = (dictPairs x).1 := by
  induction x with
  | nil =>
    refine ⟨by simp [dictPairs], ?_⟩
    show (dictPairs (47 :: r)).1 = []
    rw [dictPairs, if_pos ⟨rfl, hr⟩]
  | cons c x ih =>
    have htw : (x ++ 47 :: r).takeWhile reWord = x.takeWhile reWord := by
      clear ih
      induction x with
      | nil => rfl
      | cons d x ih => simp only [List.cons_append, List.takeWhile_cons, ih]
    rw [List.cons_append, dictPairs, dictPairs, htw]
    by_cases h : c = 47 ∧ x.takeWhile reWord ≠ []
    · rw [if_pos h, if_pos h, ih.1, ih.2]
      exact ⟨rfl, rfl⟩
    · rw [if_neg h, if_neg h, ih.1, ih.2]
      exact ⟨rfl, rfl⟩

theorem dictPairs_key {s : Bytes} {e : Bytes × Bytes} (h : e ∈ (dictPairs s).2) : (47 :: e.1) <:+: s := by
  induction s with
  | nil => simp [dictPairs] at h
  | cons c r ih =>
    rw [dictPairs] at h
    by_cases hc : c = 47 ∧ r.takeWhile reWord ≠ []
    · rw [if_pos hc] at h
      rcases List.mem_cons.1 h with rfl | h
      · obtain ⟨rfl, _⟩ := hc
        refine List.IsPrefix.isInfix ?_
        rw [List.cons_prefix_cons]
        exact ⟨rfl, List.takeWhile_prefix _⟩
      · exact (ih h).trans ((List.suffix_cons c r).isInfix)
    · rw [if_neg hc] at h
      exact (ih h).trans ((List.suffix_cons c r).isInfix)

/-- Text without names has no keys. -/
theorem dictPairs_plain (s z : Bytes) (hs : (47 : UInt8) ∉ s) (hz : (dictPairs z).1 = []) : dictPairs (s ++ z) = (s, (dictPairs z).2) := by
  induction s with
  | nil => rw [List.nil_append, ← hz]
  | cons c s ih =>
    simp only [List.mem_cons, not_or] at hs
    rw [List.cons_append, dictPairs, ih hs.2, if_neg (fun h => hs.1 h.1.symm)]

theorem fold_get (v : Bytes → Writer.PVal) (k : Bytes) : ∀ (l : List (Bytes × Bytes)) (d : Writer.Dict), (∀ e ∈ l, e.1 ≠ k) →
    (l.foldl (fun (d : Writer.Dict) e => d.set e.1 (v e.2)) d).get k = d.get k
  | [], _, _ => rfl
  | e :: l, d, h => by
    rw [List.foldl_cons, fold_get v k l _ fun x hx => h x (by simp [hx]), Map.get_set_ne _ _ (fun he => h e (by simp) he.symm)]

/-- The rest of a dictionary after the number of `/Length`: white space, and then nothing or another name. -/
def AfterNumber (y : Bytes) : Prop :=
  ∃ ws z, y = ws ++ z ∧ (∀ c ∈ ws, isSpace c = true) ∧ (z = [] ∨ ∃ r, z = 47 :: r ∧ r.takeWhile reWord ≠ [])

theorem length_read (x y : Bytes) (L : Nat) (hL : L ≤ 9223372036854775807) (hx : x = [] ∨ x.head? = some 47) (hy : AfterNumber y)
    (hyl : Absent b!"/Length" y) :
    (parseDictionary (10 :: (b!"<<" ++ (x ++ b!"/Length " ++ natDec L ++ y) ++ b!">>") ++ [10])).get b!"Length" = some (.int L) := by
  obtain ⟨ws, z, rfl, hws, hz⟩ := hy
  have hl62 : ∀ u : Bytes, (u ++ b!">>").getLast? = some 62 := by intro u; simp [List.getLast?_append]
  have h1 : trimSpace (10 :: (b!"<<" ++ (x ++ b!"/Length " ++ natDec L ++ (ws ++ z)) ++ b!">>") ++ [10]) =
      b!"<<" ++ (x ++ b!"/Length " ++ natDec L ++ (ws ++ z)) ++ b!">>" := by
    have := trim_between [10] [10] (b!"<<" ++ (x ++ b!"/Length " ++ natDec L ++ (ws ++ z)) ++ b!">>") (by decide) (by decide)
      (by intro c hc; simp at hc; subst hc; decide) (by intro c hc; rw [hl62] at hc; simp at hc; subst hc; decide)
    simpa using this
  have hne : ∃ t, x ++ b!"/Length " ++ natDec L ++ (ws ++ z) = 47 :: t := by
    rcases hx with rfl | hx
    · exact ⟨_, rfl⟩
    · cases x with
      | nil => simp at hx
      | cons c x => simp at hx; subst hx; exact ⟨_, rfl⟩
  obtain ⟨t, ht⟩ := hne
  have h2 : trimSpace (x ++ b!"/Length " ++ natDec L ++ (ws ++ z) ++ b!">>") = x ++ b!"/Length " ++ natDec L ++ (ws ++ z) ++ b!">>" := by
    have := trim_between [] [] (x ++ b!"/Length " ++ natDec L ++ (ws ++ z) ++ b!">>") (by simp) (by simp)
      (by intro c hc; rw [ht] at hc; simp at hc; subst hc; decide) (by intro c hc; rw [hl62] at hc; simp at hc; subst hc; decide)
    simpa using this
  have hz1 : (dictPairs z).1 = [] := by
    rcases hz with rfl | ⟨r, rfl, hr⟩
    · rfl
    · rw [dictPairs, if_pos ⟨rfl, hr⟩]
  have hd47 : (47 : UInt8) ∉ natDec L := fun h => by have := natDec_digits L _ h; revert this; decide
  have hws47 : (47 : UInt8) ∉ ws := fun h => by have := hws _ h; revert this; decide
  have hr : (b!"Length " ++ natDec L ++ (ws ++ z)).takeWhile reWord = b!"Length" := by
    show (76 :: 101 :: 110 :: 103 :: 116 :: 104 :: 32 :: (natDec L ++ (ws ++ z))).takeWhile reWord = b!"Length"
    simp [List.takeWhile_cons, reWord, isDigit]
  have hmid : dictPairs (b!"Length " ++ natDec L ++ (ws ++ z)) = (b!"Length " ++ natDec L ++ ws, (dictPairs z).2) := by
    have := dictPairs_plain (b!"Length " ++ natDec L ++ ws) z (by simp [hd47, hws47]) hz1
    simpa using this
  have hval : trimSpace ((b!"Length " ++ natDec L ++ ws).drop 6) = natDec L := by
    have hdig : ∀ c ∈ natDec L, isSpace c = false := fun c hc => isDigit_not_space (natDec_digits L c hc)
    have := trim_between [32] ws (natDec L) (by decide) hws
      (fun c hc => hdig c (List.mem_of_mem_head? (by simpa using hc))) (fun c hc => hdig c (List.mem_of_getLast? hc))
    simpa using this
  have hpairs : (dictPairs (x ++ b!"/Length " ++ natDec L ++ (ws ++ z))).2 = (dictPairs x).2 ++ (b!"Length", natDec L) :: (dictPairs z).2 := by
    have := (dictPairs_append x (b!"Length " ++ natDec L ++ (ws ++ z)) (by rw [hr]; decide)).1
    have e : x ++ b!"/Length " ++ natDec L ++ (ws ++ z) = x ++ 47 :: (b!"Length " ++ natDec L ++ (ws ++ z)) := by simp
    rw [e, this, dictPairs, if_pos ⟨rfl, by rw [hr]; decide⟩, hr, hmid]
    simp only [List.append_cancel_left_eq, List.cons.injEq, Prod.mk.injEq, true_and, and_true]
    exact hval
  generalize x ++ b!"/Length " ++ natDec L ++ (ws ++ z) = D at h1 h2 hpairs ⊢
  unfold parseDictionary
  simp only [h1]
  rw [show (b!"<<").isPrefixOf (b!"<<" ++ D ++ b!">>") = true by simp [List.isPrefixOf], if_pos rfl,
    show (b!"<<" ++ D ++ b!">>").drop 2 = D ++ b!">>" by simp, h2,
    show (b!">>").isSuffixOf (D ++ b!">>") = true by rw [List.isSuffixOf_iff_suffix]; exact List.suffix_append _ _, if_pos rfl,
    show (D ++ b!">>").take ((D ++ b!">>").length - 2) = D from List.take_left' (by simp)]
  rw [hpairs, List.foldl_append, List.foldl_cons]
  refine Eq.trans (fold_get (fun v => match atoi v with | some n => .int n | none => .str v) b!"Length" (dictPairs z).2 _ ?_) ?_
  · intro e he hek
    have hi := dictPairs_key he
    rw [hek] at hi
    obtain ⟨p, q, hpq⟩ := hi
    exact hyl (ws ++ p).length ⟨ws ++ p, q, by rw [← hpq]; simp, rfl⟩
  · rw [Map.get_set_eq, atoi_natDec L hL]
    rfl

end Pdfer.XFA
