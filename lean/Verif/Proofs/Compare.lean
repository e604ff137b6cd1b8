import Verif.Proofs.Phases
import Verif.Proofs.GoLib
import Verif.Proofs.Incremental

/-! Accounting of the text comparison; keyed, image, form, metadata comparison. -/

namespace Pdfer.Compare

open Pdfer.Go

theorem abs_lt (x t : Rat) : abs x < t ↔ -t < x ∧ x < t := by
  unfold abs; split <;> constructor <;> intro h <;> grind

theorem positionsMatch_iff (a b : Elem) (tol : Rat) : positionsMatch a.x a.y b.x b.y tol = true ↔ Near tol a b := by
  unfold positionsMatch Near
  rw [Bool.and_eq_true, decide_eq_true_eq, decide_eq_true_eq, abs_lt, abs_lt]
  grind

theorem size_iff (a b : Elem) : abs (a.size - b.size) < 1 / 10 ↔ -(1 / 10) < a.size - b.size ∧ a.size - b.size < 1 / 10 :=
  abs_lt _ _

theorem lower_space (c : UInt8) :
    ((if c ≥ 65 ∧ c ≤ 90 then c + 32 else c) != 32 && (if c ≥ 65 ∧ c ≤ 90 then c + 32 else c) != 9 &&
      (if c ≥ 65 ∧ c ≤ 90 then c + 32 else c) != 10 && (if c ≥ 65 ∧ c ≤ 90 then c + 32 else c) != 13) =
    (c != 32 && c != 9 && c != 10 && c != 13) :=
  forall_byte (p := fun c =>
    ((if c ≥ 65 ∧ c ≤ 90 then c + 32 else c) != 32 && (if c ≥ 65 ∧ c ≤ 90 then c + 32 else c) != 9 &&
      (if c ≥ 65 ∧ c ≤ 90 then c + 32 else c) != 10 && (if c ≥ 65 ∧ c ≤ 90 then c + 32 else c) != 13) =
    (c != 32 && c != 9 && c != 10 && c != 13)) (by decide +kernel) c

theorem lower_view (c : UInt8) : (if c ≥ 65 ∧ c ≤ 90 then c + 32 else c) =
    if 65 ≤ c.toNat && c.toNat ≤ 90 then UInt8.ofNat (c.toNat + 32) else c :=
  forall_byte (p := fun c => (if c ≥ 65 ∧ c ≤ 90 then c + 32 else c) =
    if 65 ≤ c.toNat && c.toNat ≤ 90 then UInt8.ofNat (c.toNat + 32) else c) (by decide +kernel) c

theorem space_view (c : UInt8) : (c != 32 && c != 9 && c != 10 && c != 13) =
    !(true && (decide (c = 32) || decide (c = 9) || decide (c = 10) || decide (c = 13))) :=
  forall_byte (p := fun c => (c != 32 && c != 9 && c != 10 && c != 13) =
    !(true && (decide (c = 32) || decide (c = 9) || decide (c = 10) || decide (c = 13)))) (by decide +kernel) c

/-- The normalisation of the code is the one of the specification. -/
theorem normalize_view (o : Opts) (t : Bytes) : normalize o t = view o t := by
  unfold normalize view
  cases o.ignoreCase <;> cases o.ignoreWhitespace
  · simp
  · simp only [Bool.false_eq_true, if_false, if_true, Bool.false_and, List.map_id']
    unfold dropSpace
    congr 1
    funext c; exact space_view c
  · simp only [Bool.false_eq_true, if_false, if_true, Bool.false_and, Bool.not_false, List.filter_true, Bool.true_and]
    unfold lowerAscii
    congr 1
    funext c; exact lower_view c
  · simp only [if_true]
    unfold dropSpace lowerAscii
    rw [List.filter_map]
    congr 1
    · funext c
      rw [Bool.true_and]
      exact lower_view c
    · congr 1
      funext c
      rw [← space_view c]
      exact lower_space c

theorem elementsEqual_iff (o : Opts) (a b : Elem) :
    elementsEqual o a b = true ↔ view o a.text = view o b.text ∧ Near o.textTol a b ∧ SameFont a b := by
  unfold elementsEqual SameFont
  have hs : (!decide (abs (a.size - b.size) ≥ 1 / 10)) = true ↔ abs (a.size - b.size) < 1 / 10 := by
    simp [Rat.not_le]
  rw [Bool.and_eq_true, Bool.and_eq_true, Bool.and_eq_true, hs, size_iff, positionsMatch_iff, beq_iff_eq, beq_iff_eq,
    normalize_view, normalize_view]
  grind

theorem textEqual_iff (o : Opts) (a b : Elem) :
    textEqual o a b = true ↔ view o a.text = view o b.text ∧ SameFont a b := by
  unfold textEqual SameFont
  rw [Bool.and_eq_true, Bool.and_eq_true, decide_eq_true_eq, size_iff, beq_iff_eq, beq_iff_eq, normalize_view,
    normalize_view]
  grind

/-! ### Accounts -/

theorem perm_tags {β : Type} (ps : Pairs Bool) (f : Nat × Nat × Bool → β) :
    (ps.map f).Perm ((ps.filter (fun p => !p.2.2)).map f ++ (ps.filter (·.2.2)).map f) := by
  rw [← List.map_append]
  exact ((List.perm_append_comm).trans (List.filter_append_perm _ ps)).symm.map f

/-- A set of good pairs accounts for both texts. -/
theorem accounts_pairs {t1 t2 : List Elem} {keep change : Elem → Elem → Prop} {ps : Pairs Bool}
    (h : Good t1.length t2.length (fun i j t => if t then change (el t1 i) (el t2 j) else keep (el t1 i) (el t2 j)) ps) :
    Accounts keep change t1 t2 ((free1 t1.length ps).map (el t1)) ((free2 t2.length ps).map (el t2))
      ((ps.filter (·.2.2)).map fun p => (el t1 p.1, el t2 p.2.1)) := by
  refine ⟨(ps.filter (fun p => !p.2.2)).map fun p => (el t1 p.1, el t2 p.2.1), ?_, ?_, ?_, ?_⟩
  · intro p hp
    rw [List.mem_map] at hp
    obtain ⟨q, hq, rfl⟩ := hp
    rw [List.mem_filter] at hq
    have := h.ok q hq.1
    rw [if_neg (by simpa using hq.2)] at this
    exact this
  · intro p hp
    rw [List.mem_map] at hp
    obtain ⟨q, hq, rfl⟩ := hp
    rw [List.mem_filter] at hq
    have := h.ok q hq.1
    rw [if_pos (by simpa using hq.2)] at this
    exact this
  · have h1 := h.elems1 (d := default)
    refine h1.trans (List.Perm.append ?_ (List.Perm.refl _))
    rw [List.map_map, List.map_map]
    exact perm_tags ps _
  · have h1 := h.elems2 (d := default)
    refine h1.trans (List.Perm.append ?_ (List.Perm.refl _))
    rw [List.map_map, List.map_map]
    exact perm_tags ps _

theorem accounts_toDiff {t1 t2 : List Elem} {keep change : Elem → Elem → Prop} {ps : Pairs Bool}
    (h : Good t1.length t2.length (fun i j t => if t then change (el t1 i) (el t2 j) else keep (el t1 i) (el t2 j)) ps) :
    Accounts keep change t1 t2 (toDiff t1 t2 ps).removed (toDiff t1 t2 ps).added (toDiff t1 t2 ps).modified :=
  accounts_pairs h

/-- What an element-level diff keeps. -/
def KeepElem (o : Opts) (a b : Elem) : Prop := Near o.textTol a b ∧ view o a.text = view o b.text ∧ SameFont a b

/-- What an element-level diff reports as modified: other text at the place, or the text at another place. -/
def ChangeElem (o : Opts) (a b : Elem) : Prop :=
  (Near o.textTol a b ∧ view o a.text ≠ view o b.text) ∨
  (¬ Near o.textTol a b ∧ view o a.text = view o b.text ∧ SameFont a b)

theorem map_el_getD (t : List Elem) (u : List Nat) (k : Nat) (hk : k < u.length) :
    (u.map (el t))[k]? = some (el t (u.getD k 0)) := by
  rw [List.getElem?_map, List.getD_eq_getElem?_getD, List.getElem?_eq_getElem hk]; simp

theorem myersDiff_accounts (o : Opts) (t1 t2 : List Elem) :
    Accounts (KeepElem o) (ChangeElem o) t1 t2 (myersDiff o t1 t2).removed (myersDiff o t1 t2).added
      (myersDiff o t1 t2).modified := by
  unfold myersDiff
  simp only []
  apply accounts_toDiff
  have hlcs := lcs_matching (textEqual o)
    ((free1 t1.length (phase t1.length t2.length (fun ps i j =>
      positionsMatch (el t1 i).x (el t1 i).y (el t2 j).x (el t2 j).y o.textTol &&
      normalize o (el t1 i).text != normalize o (el t2 j).text && !hasBetterMatch o t1 t2 ps i j) (fun _ _ => true)
        (phase t1.length t2.length (fun _ i j => elementsEqual o (el t1 i) (el t2 j)) (fun _ _ => false) []))).map (el t1))
    ((free2 t2.length (phase t1.length t2.length (fun ps i j =>
      positionsMatch (el t1 i).x (el t1 i).y (el t2 j).x (el t2 j).y o.textTol &&
      normalize o (el t1 i).text != normalize o (el t2 j).text && !hasBetterMatch o t1 t2 ps i j) (fun _ _ => true)
        (phase t1.length t2.length (fun _ i j => elementsEqual o (el t1 i) (el t2 j)) (fun _ _ => false) []))).map (el t2))
  refine Good.appendFree (tag := fun i j => !elementsEqual o (el t1 i) (el t2 j)) ?_ _ hlcs.increasing ?_ ?_
  · refine phase_good ?_ (phase_good ?_ (good_nil _ _ _))
    · intro ps i j _ _ _ _ _ hc
      rw [Bool.and_eq_true, Bool.and_eq_true, positionsMatch_iff] at hc
      have h2 := hc.1.2
      rw [bne_iff_ne, normalize_view, normalize_view] at h2
      simp only [if_true]
      exact Or.inl ⟨hc.1.1, h2⟩
    · intro ps i j _ _ _ _ _ hc
      rw [elementsEqual_iff] at hc
      simp only [Bool.false_eq_true, if_false]
      exact ⟨hc.2.1, hc.1, hc.2.2⟩
  · intro p hp
    obtain ⟨a, b, ha, hb, -⟩ := hlcs.paired p hp
    have h1 := (List.getElem?_eq_some_iff.mp ha).1
    have h2 := (List.getElem?_eq_some_iff.mp hb).1
    rw [List.length_map] at h1 h2
    exact ⟨h1, h2⟩
  · intro p hp
    obtain ⟨a, b, ha, hb, hab⟩ := hlcs.paired p hp
    have h1 := (List.getElem?_eq_some_iff.mp ha).1
    have h2 := (List.getElem?_eq_some_iff.mp hb).1
    rw [List.length_map] at h1 h2
    rw [map_el_getD _ _ _ h1] at ha
    rw [map_el_getD _ _ _ h2] at hb
    simp only [Option.some.injEq] at ha hb
    rw [← ha, ← hb, textEqual_iff] at hab
    split
    · rename_i he
      rw [Bool.not_eq_true', ← Bool.not_eq_true, elementsEqual_iff] at he
      exact Or.inr ⟨fun hn => he ⟨hab.1, hn, hab.2⟩, hab.1, hab.2⟩
    · rename_i he
      rw [Bool.not_eq_true', Bool.not_eq_false, elementsEqual_iff] at he
      exact ⟨he.2.1, he.1, he.2.2⟩

/-- What the diff of the chosen granularity keeps. -/
def KeepGran (o : Opts) (a b : Elem) : Prop :=
  KeepElem o a b ∨ (o.gran = .word ∧ Near o.textTol a b ∧ splitWords (view o a.text) = splitWords (view o b.text)) ∨
  (o.gran = .char ∧ Near o.textTol a b ∧ view o a.text = view o b.text)

theorem Accounts.mono {α : Type} {k k' c c' : α → α → Prop} {t1 t2 r a : List α} {m : List (α × α)}
    (h : Accounts k c t1 t2 r a m) (hk : ∀ a b, k a b → k' a b) (hc : ∀ a b, c a b → c' a b) :
    Accounts k' c' t1 t2 r a m := by
  obtain ⟨kept, h1, h2, h3, h4⟩ := h
  exact ⟨kept, fun p hp => hk _ _ (h1 p hp), fun p hp => hc _ _ (h2 p hp), h3, h4⟩

theorem granDiff_accounts (o : Opts) (t1 t2 : List Elem) :
    Accounts (KeepGran o) (Changed o) t1 t2 (granDiff o t1 t2).removed (granDiff o t1 t2).added
      (granDiff o t1 t2).modified := by
  unfold granDiff
  split
  · rename_i hg
    unfold wordLevelDiff
    apply accounts_toDiff
    refine phase_good ?_ (good_nil _ _ _)
    intro ps i j _ _ _ _ _ hc
    rw [positionsMatch_iff] at hc
    split
    · rename_i h
      rw [bne_iff_ne] at h
      exact Or.inl ⟨hc, fun he => h (by rw [he])⟩
    · rename_i h
      rw [bne_iff_ne, Decidable.not_not, normalize_view, normalize_view] at h
      exact Or.inr (Or.inl ⟨hg, hc, h⟩)
  · rename_i hg
    unfold charLevelDiff
    apply accounts_toDiff
    refine phase_good ?_ (good_nil _ _ _)
    intro ps i j _ _ _ _ _ hc
    rw [positionsMatch_iff] at hc
    split
    · rename_i h
      rw [bne_iff_ne] at h
      exact Or.inl ⟨hc, fun he => h (by rw [he])⟩
    · rename_i h
      rw [bne_iff_ne, Decidable.not_not, normalize_view, normalize_view] at h
      exact Or.inr (Or.inr ⟨hg, hc, h⟩)
  · refine (myersDiff_accounts o t1 t2).mono (fun a b h => Or.inl h) ?_
    rintro a b (h | h)
    · exact Or.inl ⟨h.1, fun he => h.2 (by rw [he])⟩
    · exact Or.inr h

/-- Filtering modifications keeps the account, if what is dropped may be kept. -/
theorem Accounts.filter {α : Type} {k k' c : α → α → Prop} {t1 t2 r a : List α} {m : List (α × α)}
    (h : Accounts k c t1 t2 r a m) (p : α × α → Bool) (hk : ∀ a b, k a b → k' a b)
    (hp : ∀ x ∈ m, p x = false → k' x.1 x.2) : Accounts k' c t1 t2 r a (m.filter p) := by
  obtain ⟨kept, h1, h2, h3, h4⟩ := h
  have hm : m.Perm (m.filter (fun x => !p x) ++ m.filter p) :=
    ((List.perm_append_comm).trans (List.filter_append_perm _ m)).symm
  refine ⟨kept ++ m.filter (fun x => !p x), ?_, ?_, ?_, ?_⟩
  · intro x hx
    rw [List.mem_append] at hx
    rcases hx with hx | hx
    · exact hk _ _ (h1 x hx)
    · rw [List.mem_filter] at hx; exact hp x hx.1 (by simpa using hx.2)
  · intro x hx; rw [List.mem_filter] at hx; exact h2 x hx.1
  · refine h3.trans ?_
    have := hm.map (·.1)
    rw [List.map_append] at this ⊢
    refine List.Perm.append ?_ (List.Perm.refl _)
    rw [List.append_assoc]
    exact List.Perm.append (List.Perm.refl _) this
  · refine h4.trans ?_
    have := hm.map (·.2)
    rw [List.map_append] at this ⊢
    refine List.Perm.append ?_ (List.Perm.refl _)
    rw [List.append_assoc]
    exact List.Perm.append (List.Perm.refl _) this

/-- Accounting for the leftovers of an account completes it. -/
theorem Accounts.trans {α : Type} {k c : α → α → Prop} {t1 t2 r a r' a' : List α} {m m' : List (α × α)}
    (h : Accounts k c t1 t2 r a m) (h' : Accounts k c r a r' a' m') : Accounts k c t1 t2 r' a' (m ++ m') := by
  obtain ⟨kept, h1, h2, h3, h4⟩ := h
  obtain ⟨kept', h1', h2', h3', h4'⟩ := h'
  have shuffle : ∀ {β : Type} (a b c d e : List β), (a ++ b ++ (c ++ d ++ e)).Perm (a ++ c ++ (b ++ d) ++ e) := by
    intro β a b c d e
    simp only [List.append_assoc]
    refine List.Perm.append (List.Perm.refl _) ?_
    rw [← List.append_assoc, ← List.append_assoc c b]
    exact List.Perm.append List.perm_append_comm (List.Perm.refl _)
  refine ⟨kept ++ kept', ?_, ?_, ?_, ?_⟩
  · intro p hp; rw [List.mem_append] at hp; rcases hp with hp | hp
    · exact h1 p hp
    · exact h1' p hp
  · intro p hp; rw [List.mem_append] at hp; rcases hp with hp | hp
    · exact h2 p hp
    · exact h2' p hp
  · refine h3.trans ((List.Perm.append (List.Perm.refl _) h3').trans ?_)
    rw [List.map_append, List.map_append]
    exact shuffle _ _ _ _ _
  · refine h4.trans ((List.Perm.append (List.Perm.refl _) h4').trans ?_)
    rw [List.map_append, List.map_append]
    exact shuffle _ _ _ _ _

/-- The pairs of the first three phases of `compareText`. -/
def threePhases (o : Opts) (t1 t2 : List Elem) : Pairs Bool :=
  let n := t1.length
  let m := t2.length
  let near (tol : Rat) (i j : Nat) := positionsMatch (el t1 i).x (el t1 i).y (el t2 j).x (el t2 j).y tol
  let p1 := phase n m (fun _ i j => (el t1 i).text == (el t2 j).text && near o.textTol i j &&
      ((el t1 i).font == (el t2 j).font && decide (abs ((el t1 i).size - (el t2 j).size) < 1 / 10)))
    (fun _ _ => false) []
  let p2 := phase n m (fun _ i j => near o.textTol i j && (el t1 i).text != (el t2 j).text) (fun _ _ => true) p1
  if o.detectMoves then
    phase n m (fun _ i j => textEqual o (el t1 i) (el t2 j) && near (moveTolerance o) i j) (fun _ _ => true) p2
  else p2

/-- The differences of `compareText` before the test for emptiness. -/
def textDiff (o : Opts) (t1 t2 : List Elem) : TextDiff :=
  let p3 := threePhases o t1 t2
  let u1 := (free1 t1.length p3).map (el t1)
  let u2 := (free2 t2.length p3).map (el t2)
  let d := if u1.length > 0 ∨ u2.length > 0 then granDiff o u1 u2 else ⟨[], [], []⟩
  sensitivity o ⟨d.added, d.removed, ((p3.filter (·.2.2)).map fun p => (el t1 p.1, el t2 p.2.1)) ++ d.modified⟩

theorem compareText_eq (o : Opts) (t1 t2 : List Elem) :
    compareText o t1 t2 = if (textDiff o t1 t2).added = [] ∧ (textDiff o t1 t2).removed = [] ∧
      (textDiff o t1 t2).modified = [] then none else some (textDiff o t1 t2) := by
  have h : textDiff o t1 t2 = sensitivity o (
      let p3 := threePhases o t1 t2
      let u1 := (free1 t1.length p3).map (el t1)
      let u2 := (free2 t2.length p3).map (el t2)
      let d0 : TextDiff := ⟨[], [], (p3.filter (·.2.2)).map fun p => (el t1 p.1, el t2 p.2.1)⟩
      if u1.length > 0 ∨ u2.length > 0 then
        let d := granDiff o u1 u2
        ⟨d0.added ++ d.added, d0.removed ++ d.removed, d0.modified ++ d.modified⟩
      else d0) := by
    unfold textDiff
    simp only []
    split
    · simp only [List.nil_append]
    · simp only [List.append_nil]
  rw [h]
  rfl

theorem threePhases_good (o : Opts) (t1 t2 : List Elem) :
    Good t1.length t2.length
      (fun i j t => if t then Changed o (el t1 i) (el t2 j) else KeepGran o (el t1 i) (el t2 j)) (threePhases o t1 t2) := by
  have g1 : Good t1.length t2.length
      (fun i j t => if t then Changed o (el t1 i) (el t2 j) else KeepGran o (el t1 i) (el t2 j))
      (phase t1.length t2.length (fun _ i j => (el t1 i).text == (el t2 j).text &&
        positionsMatch (el t1 i).x (el t1 i).y (el t2 j).x (el t2 j).y o.textTol &&
        ((el t1 i).font == (el t2 j).font && decide (abs ((el t1 i).size - (el t2 j).size) < 1 / 10)))
        (fun _ _ => false) []) := by
    refine phase_good ?_ (good_nil _ _ _)
    intro ps i j _ _ _ _ _ hc
    rw [Bool.and_eq_true, Bool.and_eq_true, Bool.and_eq_true, positionsMatch_iff, decide_eq_true_eq, size_iff,
      beq_iff_eq, beq_iff_eq] at hc
    simp only [Bool.false_eq_true, if_false]
    exact Or.inl ⟨hc.1.2, by rw [hc.1.1], hc.2⟩
  have g2 := phase_good (ps0 := phase t1.length t2.length (fun _ i j => (el t1 i).text == (el t2 j).text &&
        positionsMatch (el t1 i).x (el t1 i).y (el t2 j).x (el t2 j).y o.textTol &&
        ((el t1 i).font == (el t2 j).font && decide (abs ((el t1 i).size - (el t2 j).size) < 1 / 10)))
        (fun _ _ => false) [])
    (cond := fun _ i j => positionsMatch (el t1 i).x (el t1 i).y (el t2 j).x (el t2 j).y o.textTol &&
      (el t1 i).text != (el t2 j).text) (tag := fun _ _ => true) (by
    intro ps i j _ _ _ _ _ hc
    rw [Bool.and_eq_true, positionsMatch_iff, bne_iff_ne] at hc
    simp only [if_true]
    exact Or.inl hc) g1
  unfold threePhases
  simp only []
  split
  · refine phase_good ?_ g2
    intro ps i j hs h1 h2 hi hj hc
    rw [Bool.and_eq_true, textEqual_iff] at hc
    simp only [if_true]
    refine Or.inr ⟨?_, hc.1⟩
    intro hn
    have m2 := phase_maximal t1.length t2.length
      (fun i j => positionsMatch (el t1 i).x (el t1 i).y (el t2 j).x (el t2 j).y o.textTol &&
        (el t1 i).text != (el t2 j).text) (fun _ _ => true) _ i j hi hj (used1_mono hs h1) (used2_mono hs h2)
    have hs1 : ∀ p ∈ phase t1.length t2.length (fun _ i j => (el t1 i).text == (el t2 j).text &&
        positionsMatch (el t1 i).x (el t1 i).y (el t2 j).x (el t2 j).y o.textTol &&
        ((el t1 i).font == (el t2 j).font && decide (abs ((el t1 i).size - (el t2 j).size) < 1 / 10)))
        (fun _ _ => false) [], p ∈ ps := fun p hp => hs p (foldl_phaseStep_subset _ _ _ _ _ p hp)
    have m1 := phase_maximal t1.length t2.length (fun i j => (el t1 i).text == (el t2 j).text &&
        positionsMatch (el t1 i).x (el t1 i).y (el t2 j).x (el t2 j).y o.textTol &&
        ((el t1 i).font == (el t2 j).font && decide (abs ((el t1 i).size - (el t2 j).size) < 1 / 10)))
        (fun _ _ => false) [] i j hi hj (used1_mono hs1 h1) (used2_mono hs1 h2)
    rw [← positionsMatch_iff] at hn
    simp only [hn, Bool.true_and, bne_eq_false_iff_eq] at m2
    have hsz : abs ((el t1 i).size - (el t2 j).size) < 1 / 10 := (size_iff _ _).mpr hc.1.2.2
    simp [hn, m2, hc.1.2.1, hsz] at m1
  · exact g2

theorem sensitivity_eq (o : Opts) (d : TextDiff) : (sensitivity o d).added = d.added ∧
    (sensitivity o d).removed = d.removed ∧ (sensitivity o d).modified = d.modified.filter (fun m =>
      !(decide (o.sens = .relaxed) && decide (changeRatio (view o m.1.text) (view o m.2.text) ≤ 1 / 10))) := by
  unfold sensitivity
  cases hs : o.sens
  · simp
  · simp
  · refine ⟨rfl, rfl, ?_⟩
    simp only [normalize_view, decide_true, Bool.true_and, GT.gt]
    congr 1
    funext m
    rw [Bool.eq_iff_iff]
    simp [Rat.not_le]

/-- Every element is kept, modified, removed or added exactly once. -/
theorem textDiff_accounts (o : Opts) (t1 t2 : List Elem) :
    Accounts (Unchanged o) (Changed o) t1 t2 (textDiff o t1 t2).removed (textDiff o t1 t2).added
      (textDiff o t1 t2).modified := by
  have h1 := accounts_pairs (threePhases_good o t1 t2)
  have key : Accounts (KeepGran o) (Changed o) t1 t2
      (if ((free1 t1.length (threePhases o t1 t2)).map (el t1)).length > 0 ∨
          ((free2 t2.length (threePhases o t1 t2)).map (el t2)).length > 0 then
        granDiff o ((free1 t1.length (threePhases o t1 t2)).map (el t1))
          ((free2 t2.length (threePhases o t1 t2)).map (el t2)) else ⟨[], [], []⟩).removed
      (if ((free1 t1.length (threePhases o t1 t2)).map (el t1)).length > 0 ∨
          ((free2 t2.length (threePhases o t1 t2)).map (el t2)).length > 0 then
        granDiff o ((free1 t1.length (threePhases o t1 t2)).map (el t1))
          ((free2 t2.length (threePhases o t1 t2)).map (el t2)) else ⟨[], [], []⟩).added
      ((((threePhases o t1 t2).filter (·.2.2)).map fun p => (el t1 p.1, el t2 p.2.1)) ++
      (if ((free1 t1.length (threePhases o t1 t2)).map (el t1)).length > 0 ∨
          ((free2 t2.length (threePhases o t1 t2)).map (el t2)).length > 0 then
        granDiff o ((free1 t1.length (threePhases o t1 t2)).map (el t1))
          ((free2 t2.length (threePhases o t1 t2)).map (el t2)) else ⟨[], [], []⟩).modified) := by
    split
    · exact h1.trans (granDiff_accounts o _ _)
    · rename_i hn
      have e1 : (free1 t1.length (threePhases o t1 t2)).map (el t1) = [] := by
        apply List.eq_nil_of_length_eq_zero; omega
      have e2 : (free2 t2.length (threePhases o t1 t2)).map (el t2) = [] := by
        apply List.eq_nil_of_length_eq_zero; omega
      rw [e1, e2] at h1
      simpa using h1
  unfold textDiff
  simp only []
  rw [(sensitivity_eq o _).1, (sensitivity_eq o _).2.1, (sensitivity_eq o _).2.2]
  refine key.filter _ ?_ ?_
  · rintro a b (h | h | h)
    · exact Or.inl h
    · exact Or.inr (Or.inl h)
    · exact Or.inr (Or.inr (Or.inl h))
  · intro x _ hx
    simp at hx
    exact Or.inr (Or.inr (Or.inr ⟨hx.1, by simpa using hx.2⟩))

end Pdfer.Compare
