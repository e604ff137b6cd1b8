import Verif.Proofs.Compare

/-! Self-comparison; keyed, image and form comparison. -/

namespace Pdfer.Compare

open Pdfer.Go

theorem near_self (tol : Rat) (h : 0 < tol) (a : Elem) : Near tol a a := by unfold Near; grind

theorem not_near (tol : Rat) (h : tol ≤ 0) (a b : Elem) : ¬ Near tol a b := by unfold Near; grind

theorem pos_self (x y tol : Rat) (h : 0 < tol) : positionsMatch x y x y tol = true := by
  unfold positionsMatch
  rw [Bool.and_eq_true, decide_eq_true_eq, decide_eq_true_eq, abs_lt, abs_lt]; grind

theorem used1_diag {τ : Type} (n : Nat) (tag : Nat → τ) (i : Nat) (h : i < n) :
    used1 ((List.range n).map fun i => (i, i, tag i)) i = true := by
  rw [used1_iff]; simpa using h

theorem free1_diag {τ : Type} (n : Nat) (tag : Nat → τ) :
    free1 n ((List.range n).map fun i => (i, i, tag i)) = [] := by
  unfold free1
  rw [List.filter_eq_nil_iff]
  intro i hi
  rw [used1_diag n tag i (by simpa using hi)]; simp

theorem free2_diag {τ : Type} (n : Nat) (tag : Nat → τ) :
    free2 n ((List.range n).map fun i => (i, i, tag i)) = [] := by
  unfold free2
  rw [List.filter_eq_nil_iff]
  intro i hi
  have : used2 ((List.range n).map fun i => (i, i, tag i)) i = true := by rw [used2_iff]; simpa using hi
  rw [this]; simp

theorem compareText_self (o : Opts) (t : List Elem) (h : 0 < o.textTol) : compareText o t t = none := by
  have h3 : threePhases o t t = (List.range t.length).map fun i => (i, i, false) := by
    unfold threePhases
    simp only []
    rw [phase_diag t.length _ (fun _ _ => false) (by
      intro ps i _
      have : abs ((el t i).size - (el t i).size) < 1 / 10 := (abs_lt _ _).mpr (by grind)
      simp [pos_self _ _ _ h, this])]
    rw [phase_full _ _ _ _ _ (fun i hi => used1_diag t.length (fun _ => false) i hi)]
    rw [phase_full _ _ _ _ _ (fun i hi => used1_diag t.length (fun _ => false) i hi)]
    simp
  rw [compareText_eq]
  have hd : textDiff o t t = ⟨[], [], []⟩ := by
    unfold textDiff
    simp only [h3]
    rw [free1_diag t.length (fun _ => false), free2_diag t.length (fun _ => false)]
    simp only [List.map_nil, List.length_nil, gt_iff_lt, Nat.lt_irrefl, or_self, if_false, List.append_nil]
    have : ((List.range t.length).map fun i => (i, i, false)).filter (·.2.2) = [] := by
      rw [List.filter_eq_nil_iff]; intro p hp; simp at hp; obtain ⟨i, -, rfl⟩ := hp; simp
    rw [this]
    unfold sensitivity
    split <;> simp
  rw [hd]; simp

/-- What is not reported is unchanged. -/
theorem compareText_none (o : Opts) (t1 t2 : List Elem) (h : compareText o t1 t2 = none) :
    ∃ kept : List (Elem × Elem), (∀ p ∈ kept, Unchanged o p.1 p.2) ∧ t1.Perm (kept.map (·.1)) ∧ t2.Perm (kept.map (·.2)) := by
  rw [compareText_eq] at h
  split at h
  · rename_i he
    obtain ⟨kept, h1, -, h3, h4⟩ := textDiff_accounts o t1 t2
    rw [he.1, he.2.1, he.2.2] at *
    exact ⟨kept, h1, by simpa using h3, by simpa using h4⟩
  · simp at h

theorem compareText_self_tol0 (o : Opts) (t : List Elem) (h : o.textTol ≤ 0) (hs : o.sens ≠ .relaxed) (ht : t ≠ []) :
    compareText o t t ≠ none := by
  intro hn
  obtain ⟨kept, hk, h1, -⟩ := compareText_none o t t hn
  cases kept with
  | nil => exact ht (by simpa using h1)
  | cons p kept =>
    rcases hk p (by simp) with h | h | h | h
    · exact not_near _ ‹_› _ _ h.1
    · exact not_near _ ‹_› _ _ h.2.1
    · exact not_near _ ‹_› _ _ h.2.1
    · exact hs h.1

/-! ### Keyed comparison -/

theorem keyedLoop_added {α : Type} (key : α → Bytes) (g2 : List α) : ∀ m : Map Bytes α,
    (keyedLoop key m g2).1 = [] ↔ (g2.map key).Nodup ∧ ∀ k ∈ g2.map key, (Map.get m k).isSome := by
  induction g2 with
  | nil => intro m; simp [keyedLoop]
  | cons g gs ih =>
    intro m
    unfold keyedLoop
    cases hg : Map.get m (key g) with
    | none => simp [hg]
    | some v =>
      simp only []
      rw [ih]
      simp only [List.map_cons, List.nodup_cons]
      constructor
      · rintro ⟨h1, h2⟩
        refine ⟨⟨?_, h1⟩, ?_⟩
        · intro hc
          have := h2 _ hc
          rw [Map.get_del_eq] at this; simp at this
        · intro k hk
          rcases List.mem_cons.mp hk with rfl | hk
          · simp [hg]
          · have := h2 k hk
            by_cases he : k = key g
            · subst he; simp [hg]
            · rwa [Map.get_del_ne _ he] at this
      · rintro ⟨⟨h1, h2⟩, h3⟩
        refine ⟨h2, fun k hk => ?_⟩
        have he : k ≠ key g := by rintro rfl; exact h1 hk
        rw [Map.get_del_ne _ he]
        exact h3 k (List.mem_cons_of_mem _ hk)

theorem keyedLoop_left {α : Type} (key : α → Bytes) (g2 : List α) : ∀ m : Map Bytes α,
    (keyedLoop key m g2).2 = m.filter (fun e => !(g2.map key).contains e.1) := by
  induction g2 with
  | nil => intro m; simp [keyedLoop]
  | cons g gs ih =>
    intro m
    unfold keyedLoop
    cases hg : Map.get m (key g) with
    | none =>
      simp only []
      rw [ih]
      apply List.filter_congr
      intro e he
      have : e.1 ≠ key g := by
        intro h
        have := (Map.get_none_iff m (key g)).mp hg
        exact this (by rw [← h]; exact List.mem_map_of_mem he)
      simp [List.map_cons, this]
    | some v =>
      simp only []
      rw [ih]
      unfold Map.del
      rw [List.filter_filter]
      apply List.filter_congr
      intro e he
      simp only [List.map_cons, List.contains_cons]
      cases h : (e.1 == key g) <;> simp_all

theorem keyMap_keys {α : Type} (key : α → Bytes) (g1 : List α) : ∀ m : Map Bytes α, ∀ k,
    k ∈ (g1.foldl (fun (m : Map Bytes α) g => Map.set m (key g) g) m).keys ↔ k ∈ g1.map key ∨ k ∈ m.keys := by
  induction g1 with
  | nil => intro m k; simp
  | cons g gs ih =>
    intro m k
    simp only [List.foldl_cons]
    rw [ih, Map.mem_keys_set, List.map_cons, List.mem_cons]
    constructor
    · rintro (h | h | h) <;> simp [h]
    · rintro ((h | h) | h) <;> simp [h]

/-- When graphics or annotations are found equal. -/
theorem compareKeyed_none {α : Type} (key : α → Bytes) (g1 g2 : List α) :
    compareKeyed key g1 g2 = none ↔ (g2.map key).Nodup ∧ ∀ k, k ∈ g1.map key ↔ k ∈ g2.map key := by
  unfold compareKeyed
  simp only []
  rw [keyedLoop_left]
  have hl : ∀ m : Map Bytes α, m.filter (fun e => !(g2.map key).contains e.1) = [] ↔ ∀ k ∈ m.keys, k ∈ g2.map key := by
    intro m
    rw [List.filter_eq_nil_iff]
    unfold Map.keys
    simp only [List.mem_map]
    constructor
    · rintro h k ⟨e, he, rfl⟩
      have := h e he
      simpa using this
    · intro h e he
      have := h e.1 ⟨e, he, rfl⟩
      simpa using this
  constructor
  · intro h
    split at h
    · rename_i he
      rw [Bool.and_eq_true, List.isEmpty_iff, List.isEmpty_iff, keyedLoop_added, hl] at he
      refine ⟨he.1.1, fun k => ⟨fun hk => ?_, fun hk => ?_⟩⟩
      · exact he.2 k ((keyMap_keys key g1 [] k).mpr (Or.inl hk))
      · have := he.1.2 k hk
        rw [Map.get_isSome_iff] at this
        rcases (keyMap_keys key g1 [] k).mp this with h | h
        · exact h
        · simp [Map.keys] at h
    · simp at h
  · rintro ⟨h1, h2⟩
    rw [if_pos]
    rw [Bool.and_eq_true, List.isEmpty_iff, List.isEmpty_iff, keyedLoop_added, hl]
    refine ⟨⟨h1, fun k hk => ?_⟩, fun k hk => ?_⟩
    · rw [Map.get_isSome_iff]
      exact (keyMap_keys key g1 [] k).mpr (Or.inl ((h2 k).mpr hk))
    · rcases (keyMap_keys key g1 [] k).mp hk with h | h
      · exact (h2 k).mp h
      · simp [Map.keys] at h

theorem keyMap_perm {α : Type} (key : α → Bytes) (g1 : List α) : ∀ m : Map Bytes α, (g1.map key).Nodup →
    (∀ k ∈ g1.map key, k ∉ m.keys) →
    ((g1.foldl (fun (m : Map Bytes α) g => Map.set m (key g) g) m)).Perm (g1.map (fun g => (key g, g)) ++ m) := by
  induction g1 with
  | nil => intro m _ _; simp
  | cons g gs ih =>
    intro m hn hm
    simp only [List.map_cons, List.nodup_cons] at hn
    simp only [List.foldl_cons]
    have hset : Map.set m (key g) g = (key g, g) :: m := by
      unfold Map.set
      congr 1
      rw [List.filter_eq_self]
      intro e he
      have := hm (key g) (by simp)
      simp only [decide_not, Bool.not_eq_true', decide_eq_false_iff_not]
      intro h
      exact this (by rw [← h]; exact List.mem_map_of_mem he)
    rw [hset]
    refine (ih _ hn.2 ?_).trans ?_
    · intro k hk
      unfold Map.keys
      simp only [List.map_cons, List.mem_cons, not_or]
      refine ⟨?_, hm k (by simp at hk ⊢; exact Or.inr hk)⟩
      rintro rfl
      exact hn.1 hk
    · rw [List.map_cons, List.cons_append]
      exact List.perm_middle

theorem keyedLoop_added_eq {α : Type} (key : α → Bytes) (g2 : List α) : ∀ m : Map Bytes α, (g2.map key).Nodup →
    (keyedLoop key m g2).1 = g2.filter (fun g => (Map.get m (key g)).isNone) := by
  induction g2 with
  | nil => intro m _; simp [keyedLoop]
  | cons g gs ih =>
    intro m hn
    simp only [List.map_cons, List.nodup_cons] at hn
    unfold keyedLoop
    cases hg : Map.get m (key g) with
    | none => simp [hg, ih m hn.2]
    | some v =>
      simp only []
      rw [ih _ hn.2, List.filter_cons, hg]
      simp only [Option.isNone_some, Bool.false_eq_true, if_false]
      apply List.filter_congr
      intro e he
      have : key e ≠ key g := by
        intro h; exact hn.1 (by rw [← h]; exact List.mem_map_of_mem he)
      rw [Map.get_del_ne _ this]

/-- With distinct keys on each side the difference is exact. -/
theorem compareKeyed_exact {α : Type} (key : α → Bytes) (g1 g2 : List α) (h1 : (g1.map key).Nodup)
    (h2 : (g2.map key).Nodup) (a r : List α) (h : compareKeyed key g1 g2 = some (a, r)) :
    a = g2.filter (fun g => !(g1.map key).contains (key g)) ∧
      r.Perm (g1.filter (fun g => !(g2.map key).contains (key g))) := by
  unfold compareKeyed at h
  simp only [] at h
  rw [keyedLoop_left, keyedLoop_added_eq _ _ _ h2] at h
  split at h
  · simp at h
  · simp only [Option.some.injEq, Prod.mk.injEq] at h
    obtain ⟨ha, hr⟩ := h
    subst ha hr
    refine ⟨?_, ?_⟩
    · apply List.filter_congr
      intro e he
      rw [Bool.eq_iff_iff, Option.isNone_iff_eq_none, Map.get_none_iff, keyMap_keys]
      simp [Map.keys]
    · have := (keyMap_perm key g1 [] h1 (by simp [Map.keys]))
      rw [List.append_nil] at this
      have := (this.filter (fun e => !(g2.map key).contains e.1)).map (·.2)
      refine this.trans ?_
      rw [List.filter_map, List.map_map]
      simp [Function.comp_def]

/-! ### Images, metadata, forms -/

theorem imagesEqual_self (a : Img) : imagesEqual a a = true := by simp [imagesEqual]

theorem imagesEqual_iff (a b : Img) : imagesEqual a b = true ↔ a = b := by
  constructor
  · intro h
    simp only [imagesEqual, Bool.and_eq_true, Bool.or_eq_true, decide_eq_true_eq, beq_iff_eq] at h
    obtain ⟨⟨⟨⟨h1, h2⟩, h3⟩, h4⟩, h5⟩ := h
    cases a; cases b
    simp only at h1 h2 h3 h4 h5
    subst h1 h2 h3 h4
    simp only [Img.mk.injEq, true_and]
    rcases h5 with h5 | h5
    · rw [List.eq_nil_of_length_eq_zero h5.1, List.eq_nil_of_length_eq_zero h5.2]
    · exact h5.2
  · rintro rfl; exact imagesEqual_self a

theorem compareImages_self (data : Bytes → Option Img) (t : List ImgRef) : compareImages data data t t = none := by
  unfold compareImages
  simp only []
  rw [phase_diag t.length _ _ (by
    intro ps i _
    simp [pos_self _ _ _ (show (0 : Rat) < 1 by grind)])]
  rw [phase_full _ _ _ _ _ (fun i hi => used1_diag t.length _ i hi), free1_diag, free2_diag]
  have hk : ∀ d : Option Img, imgTag d d = .kept := by
    intro d
    cases d with
    | none => rfl
    | some x => simp [imgTag, imagesEqual_self]
  rw [if_pos]
  refine ⟨by simp, by simp, ?_, ?_⟩
  · rw [List.map_eq_nil_iff, List.filter_eq_nil_iff]
    intro p hp
    rw [List.mem_map] at hp
    obtain ⟨i, -, rfl⟩ := hp
    simp only [hk]; simp
  · rw [List.map_eq_nil_iff, List.filter_eq_nil_iff]
    intro p hp
    rw [List.mem_map] at hp
    obtain ⟨i, -, rfl⟩ := hp
    simp only [hk]; simp

theorem compareMetadata_self (o : Opts) (m : Option Meta) : compareMetadata o m m = none := by
  unfold compareMetadata
  cases m <;> simp

theorem valuesEqual_self (v : Value) : valuesEqual v v = true := by
  unfold valuesEqual; split <;> simp_all

theorem get_of_mem {ν : Type} (m : Map Bytes ν) (hn : m.keys.Nodup) (e : Bytes × ν) (he : e ∈ m) : m.get e.1 = some e.2 :=
  (Map.get_eq_some_iff m hn e.1 e.2).mpr he

/-- Added, removed and modified fields of two forms of the same type. -/
theorem compareForms_same (a b : Form) (ht : a.typ = b.typ) (ha : a.values.keys.Nodup) (hb : b.values.keys.Nodup) :
    (∀ k v, (k, v) ∈ ((compareForms (some a) (some b)).map (·.added)).getD [] ↔
      b.values.get k = some v ∧ a.values.get k = none) ∧
    (∀ k v, (k, v) ∈ ((compareForms (some a) (some b)).map (·.removed)).getD [] ↔
      a.values.get k = some v ∧ b.values.get k = none) ∧
    (∀ k v w, (k, v, w) ∈ ((compareForms (some a) (some b)).map (·.modified)).getD [] ↔
      a.values.get k = some v ∧ b.values.get k = some w ∧ valuesEqual v w = false) := by
  have key : ∀ (x y : List (Bytes × Value)) (z : List (Bytes × Value × Value)),
      (((if x = [] ∧ y = [] ∧ z = [] then none else some (FormDiff.mk x y z none)) : Option FormDiff).map
        (·.added)).getD [] = x ∧
      (((if x = [] ∧ y = [] ∧ z = [] then none else some (FormDiff.mk x y z none)) : Option FormDiff).map
        (·.removed)).getD [] = y ∧
      (((if x = [] ∧ y = [] ∧ z = [] then none else some (FormDiff.mk x y z none)) : Option FormDiff).map
        (·.modified)).getD [] = z := by
    intro x y z
    split
    · rename_i h; simp [h]
    · simp
  unfold compareForms
  simp only [ht, ne_eq, not_true_eq_false, if_false]
  refine ⟨?_, ?_, ?_⟩
  · intro k v
    rw [(key _ _ _).1, List.mem_filter, Option.isNone_iff_eq_none, ← Map.get_eq_some_iff _ hb]
  · intro k v
    rw [(key _ _ _).2.1, List.mem_filter, Option.isNone_iff_eq_none, ← Map.get_eq_some_iff _ ha]
  · intro k v w
    rw [(key _ _ _).2.2, List.mem_filterMap]
    constructor
    · rintro ⟨e, he, h⟩
      cases hg : b.values.get e.1 with
      | none => simp [hg] at h
      | some v2 =>
        simp only [hg, Option.bind_some] at h
        split at h
        · simp at h
        · rename_i hv
          simp only [Option.some.injEq, Prod.mk.injEq] at h
          obtain ⟨rfl, rfl, rfl⟩ := h
          exact ⟨get_of_mem _ ha e he, hg, by simpa using hv⟩
    · rintro ⟨h1, h2, h3⟩
      refine ⟨(k, v), (Map.get_eq_some_iff _ ha k v).mp h1, ?_⟩
      simp [h2, h3]

theorem compareForms_self (f : Option Form) (h : ∀ a, f = some a → a.values.keys.Nodup) : compareForms f f = none := by
  cases f with
  | none => rfl
  | some a =>
    have hn := h a rfl
    unfold compareForms
    simp only [ne_eq, not_true_eq_false, if_false]
    rw [if_pos]
    refine ⟨?_, ?_, ?_⟩
    · rw [List.filter_eq_nil_iff]; intro e he; simp [get_of_mem _ hn e he]
    · rw [List.filter_eq_nil_iff]; intro e he; simp [get_of_mem _ hn e he]
    · rw [List.filterMap_eq_nil_iff]; intro e he; simp [get_of_mem _ hn e he, valuesEqual_self]

theorem itoa_inj (a b : Int) (h : itoa a = itoa b) : a = b := by
  have hno : ∀ n : Nat, ∀ r, natDec n ≠ 45 :: r := by
    intro n r hc
    have := natDec_digits n 45 (by rw [hc]; simp)
    revert this; decide
  cases a <;> cases b <;> simp only [itoa] at h
  · rw [natDec_inj h]
  · exact absurd h (hno _ _)
  · exact absurd h.symm (hno _ _)
  · simp only [List.cons.injEq, true_and] at h
    have := natDec_inj h
    congr 1; omega

/-! ### Change ratio, words -/

theorem zip_diff_le (a b : Bytes) : ((a.zip b).filter fun p => p.1 != p.2).length ≤ min a.length b.length := by
  refine Nat.le_trans (List.length_filter_le _ _) ?_
  simp [List.length_zip]

theorem zip_diff_zero (a : Bytes) : ∀ b : Bytes, a.length = b.length →
    (((a.zip b).filter fun p => p.1 != p.2).length = 0 ↔ a = b) := by
  induction a with
  | nil => intro b h; simp at h; simp [List.eq_nil_of_length_eq_zero h.symm]
  | cons x a ih =>
    intro b h
    cases b with
    | nil => simp at h
    | cons y b =>
      simp only [List.zip_cons_cons, List.filter_cons]
      by_cases hxy : x = y
      · subst hxy; simp only [bne_self_eq_false, Bool.false_eq_true, if_false, List.cons.injEq, true_and]
        exact ih b (by simpa using h)
      · simp [hxy]

theorem splitWordsAux_word (w : Bytes) (hw : ∀ c ∈ w, isWordByte c = true) : ∀ cur r,
    splitWordsAux cur (w ++ r) = splitWordsAux (cur ++ w) r := by
  induction w with
  | nil => intro cur r; simp
  | cons c w ih =>
    intro cur r
    simp only [List.cons_append, splitWordsAux, hw c (by simp), if_true]
    rw [ih (fun c hc => hw c (by simp [hc]))]
    simp

theorem splitWordsAux_sep (a : Bytes) (s : UInt8) (hs : isWordByte s = false) (b : Bytes) : ∀ cur,
    splitWordsAux cur (a ++ s :: b) = splitWordsAux cur a ++ splitWordsAux [] b := by
  induction a with
  | nil =>
    intro cur
    simp only [List.nil_append, splitWordsAux, hs, Bool.false_eq_true, if_false]
    split <;> simp
  | cons c a ih =>
    intro cur
    simp only [List.cons_append, splitWordsAux]
    split
    · exact ih _
    · split
      · exact ih _
      · rw [ih]; simp

end Pdfer.Compare
