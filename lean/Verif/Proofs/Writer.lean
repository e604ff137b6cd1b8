import Verif.Proofs.GoLib
import Verif.Spec.Writer

namespace Pdfer.Writer

open Pdfer.Go Pdfer.Spec

/-! ### Sorting -/

section sort
variable {α : Type}

theorem insertBy_perm (le : α → α → Bool) (x : α) (l : List α) : (insertBy le x l).Perm (x :: l) := by
  induction l with
  | nil => exact List.Perm.refl _
  | cons y ys ih =>
    simp only [insertBy]
    split
    · exact List.Perm.refl _
    · exact (List.Perm.cons y ih).trans (List.Perm.swap x y ys)

theorem sortBy_perm (le : α → α → Bool) (l : List α) : (sortBy le l).Perm l := by
  induction l with
  | nil => exact List.Perm.refl _
  | cons x xs ih => exact (insertBy_perm le x _).trans (List.Perm.cons x ih)

theorem insertBy_sorted (le : α → α → Bool) (htot : ∀ a b, le a b = true ∨ le b a = true)
    (htr : ∀ a b c, le a b = true → le b c = true → le a c = true) (x : α) (l : List α)
    (h : l.Pairwise (fun a b => le a b = true)) : (insertBy le x l).Pairwise (fun a b => le a b = true) := by
  induction l with
  | nil => simp [insertBy]
  | cons y ys ih =>
    simp only [insertBy]
    rw [List.pairwise_cons] at h
    split
    · rename_i hxy
      refine List.pairwise_cons.2 ⟨?_, List.pairwise_cons.2 h⟩
      intro b hb
      rcases List.mem_cons.1 hb with rfl | hb
      · exact hxy
      · exact htr _ _ _ hxy (h.1 b hb)
    · rename_i hxy
      refine List.pairwise_cons.2 ⟨?_, ih h.2⟩
      intro b hb
      rcases List.mem_cons.1 ((insertBy_perm le x ys).mem_iff.1 hb) with rfl | hb
      · exact (htot y b).resolve_right hxy
      · exact h.1 b hb

theorem sortBy_sorted (le : α → α → Bool) (htot : ∀ a b, le a b = true ∨ le b a = true)
    (htr : ∀ a b c, le a b = true → le b c = true → le a c = true) (l : List α) :
    (sortBy le l).Pairwise (fun a b => le a b = true) := by
  induction l with
  | nil => exact List.Pairwise.nil
  | cons x xs ih => exact insertBy_sorted le htot htr x _ ih

theorem sortBy_eq_of_perm (le : α → α → Bool) (htot : ∀ a b, le a b = true ∨ le b a = true)
    (htr : ∀ a b c, le a b = true → le b c = true → le a c = true) (l₁ l₂ : List α)
    (hp : l₁.Perm l₂) (hanti : ∀ a ∈ l₁, ∀ b ∈ l₁, le a b = true → le b a = true → a = b) :
    sortBy le l₁ = sortBy le l₂ := by
  refine List.Perm.eq_of_pairwise (le := fun a b => le a b = true) ?_ (sortBy_sorted le htot htr l₁)
    (sortBy_sorted le htot htr l₂) ((sortBy_perm le l₁).trans (hp.trans (sortBy_perm le l₂).symm))
  intro a b ha hb
  exact hanti a ((sortBy_perm le l₁).mem_iff.1 ha) b (hp.mem_iff.2 ((sortBy_perm le l₂).mem_iff.1 hb))

end sort

theorem bytesLe_total (a b : Bytes) : bytesLe a b = true ∨ bytesLe b a = true := by
  induction a generalizing b with
  | nil => simp [bytesLe]
  | cons x xs ih =>
    cases b with
    | nil => simp [bytesLe]
    | cons y ys =>
      simp only [bytesLe]
      by_cases h1 : x < y
      · simp [h1]
      · by_cases h2 : x = y
        · subst h2; simpa [h1] using ih ys
        · right
          have : y < x := by
            rw [UInt8.lt_iff_toNat_lt] at *
            have : x.toNat ≠ y.toNat := fun e => h2 (UInt8.toNat_inj.1 e)
            omega
          simp [this]

theorem bytesLe_trans (a b c : Bytes) (h1 : bytesLe a b = true) (h2 : bytesLe b c = true) :
    bytesLe a c = true := by
  induction a generalizing b c with
  | nil => simp [bytesLe]
  | cons x xs ih =>
    cases b with
    | nil => simp [bytesLe] at h1
    | cons y ys =>
      cases c with
      | nil => simp [bytesLe] at h2
      | cons z zs =>
        simp only [bytesLe] at h1 h2 ⊢
        split at h1
        · rename_i hxy
          split at h2
          · rename_i hyz
            rw [if_pos]
            rw [UInt8.lt_iff_toNat_lt] at *; omega
          · split at h2
            · rename_i hyz; subst hyz; rw [if_pos hxy]
            · simp at h2
        · split at h1
          · rename_i hxy; subst hxy
            split at h2
            · rw [if_pos ‹_›]
            · split at h2
              · rename_i h; subst h; simpa [*] using ih _ _ h1 h2
              · simp at h2
          · simp at h1

theorem bytesLe_antisymm (a b : Bytes) (h1 : bytesLe a b = true) (h2 : bytesLe b a = true) : a = b := by
  induction a generalizing b with
  | nil => cases b with
    | nil => rfl
    | cons y ys => simp [bytesLe] at h2
  | cons x xs ih =>
    cases b with
    | nil => simp [bytesLe] at h1
    | cons y ys =>
      simp only [bytesLe] at h1 h2
      by_cases hxy : x < y
      · rw [if_neg, if_neg] at h2
        · simp at h2
        · intro e; subst e; rw [UInt8.lt_iff_toNat_lt] at hxy; omega
        · rw [UInt8.lt_iff_toNat_lt] at *; omega
      · rw [if_neg hxy] at h1
        split at h1
        · rename_i e; subst e
          rw [if_neg hxy, if_pos rfl] at h2
          rw [ih ys h1 h2]
        · simp at h1

/-! ### Dictionary formatting does not depend on the iteration order -/

mutual
/-- No dictionary inside the value has a repeated key (always true of Go maps). -/
def WFVal : PVal → Prop
  | .int _ => True
  | .str _ => True
  | .bytes _ => True
  | .arr l => WFItems l
  | .dict d => (d.map Prod.fst).Nodup ∧ WFEntries d
  | .other _ => True
def WFItems : List PVal → Prop
  | [] => True
  | v :: vs => WFVal v ∧ WFItems vs
def WFEntries : List (Bytes × PVal) → Prop
  | [] => True
  | e :: es => WFPair e ∧ WFEntries es
def WFPair : Bytes × PVal → Prop
  | (_, v) => WFVal v
end

theorem formatEntries_keys (ord : List (Bytes × Bytes) → List (Bytes × Bytes)) (d : List (Bytes × PVal)) :
    (formatEntries ord d).map Prod.fst = d.map Prod.fst := by
  induction d with
  | nil => rfl
  | cons e es ih => obtain ⟨k, v⟩ := e; simp [formatEntries, formatPair, ih]

theorem nodup_key_eq {β : Type} {l : List (Bytes × β)} (h : (l.map Prod.fst).Nodup) {a b : Bytes × β}
    (ha : a ∈ l) (hb : b ∈ l) (e : a.1 = b.1) : a = b := by
  induction l with
  | nil => simp at ha
  | cons x xs ih =>
    rw [List.map_cons, List.nodup_cons] at h
    rcases List.mem_cons.1 ha with ha' | ha' <;> rcases List.mem_cons.1 hb with hb' | hb'
    · rw [ha', hb']
    · exact absurd (List.mem_map.2 ⟨b, hb', by rw [← e, ha']⟩) h.1
    · exact absurd (List.mem_map.2 ⟨a, ha', by rw [e, hb']⟩) h.1
    · exact ih h.2 ha' hb'

theorem renderEntries_perm (l₁ l₂ : List (Bytes × Bytes)) (hp : l₁.Perm l₂) (hn : (l₁.map Prod.fst).Nodup) :
    renderEntries l₁ = renderEntries l₂ := by
  unfold renderEntries
  rw [sortBy_eq_of_perm _ (fun a b => bytesLe_total a.1 b.1) (fun a b c => bytesLe_trans a.1 b.1 c.1) l₁ l₂ hp]
  intro a ha b hb h1 h2
  exact nodup_key_eq hn ha hb (bytesLe_antisymm _ _ h1 h2)

section ord
set_option linter.unusedSectionVars false
variable (ord : List (Bytes × Bytes) → List (Bytes × Bytes)) (hord : ∀ l, (ord l).Perm l)
include hord

mutual
theorem formatValue_ord : ∀ v : PVal, WFVal v → formatValue ord v = formatValue id v
  | .int _, _ => by simp [formatValue]
  | .str _, _ => by simp [formatValue]
  | .bytes _, _ => by simp [formatValue]
  | .arr l, h => by
    simp only [WFVal] at h
    simp only [formatValue, formatItems_ord l h]
  | .dict d, h => by
    simp only [WFVal] at h
    have h1 := formatEntries_ord d h.2
    simp only [formatValue, id]
    rw [h1]
    congr 2
    refine renderEntries_perm _ _ (hord _) ?_
    rw [((hord (formatEntries id d)).map Prod.fst).nodup_iff, formatEntries_keys]
    exact h.1
  | .other _, _ => by simp [formatValue]
theorem formatItems_ord : ∀ l : List PVal, WFItems l → formatItems ord l = formatItems id l
  | [], _ => rfl
  | v :: vs, h => by
    simp only [WFItems] at h
    simp only [formatItems, formatValue_ord v h.1, formatItems_ord vs h.2]
theorem formatEntries_ord : ∀ l : List (Bytes × PVal), WFEntries l → formatEntries ord l = formatEntries id l
  | [], _ => rfl
  | (k, v) :: es, h => by
    simp only [WFEntries, WFPair] at h
    simp only [formatEntries, formatPair, formatValue_ord v h.1, formatEntries_ord es h.2]
end
end ord

/-! ### The writer invariant -/

/-- Object numbers in the map are below the counter, the counter is positive, keys are unique. -/
structure Inv (w : Writer) : Prop where
  next_pos : 1 ≤ w.nextObjNum
  lt_next : ∀ n ∈ w.objects.keys, n < w.nextObjNum
  nodup : w.objects.keys.Nodup

theorem inv_new : Inv newWriter := ⟨by decide, by simp [newWriter, Map.keys], by simp [newWriter, Map.keys]⟩

theorem inv_objects_set {w : Writer} (h : Inv w) (n next' : Int) (o : Obj) (h1 : n < next')
    (h2 : w.nextObjNum ≤ next') (w' : Writer) (e1 : w'.objects = w.objects.set n o)
    (e2 : w'.nextObjNum = next') : Inv w' := by
  refine ⟨by rw [e2]; have := h.next_pos; omega, ?_, ?_⟩
  · intro m hm
    rw [e1, Map.mem_keys_set] at hm
    rw [e2]
    rcases hm with rfl | hm
    · exact h1
    · have := h.lt_next m hm; omega
  · rw [e1]; exact Map.nodup_set _ _ _ h.nodup

theorem inv_same {w w' : Writer} (h : Inv w) (e1 : w'.objects = w.objects) (e2 : w.nextObjNum ≤ w'.nextObjNum) :
    Inv w' :=
  ⟨by have := h.next_pos; omega, by rw [e1]; intro n hn; have := h.lt_next n hn; omega, by rw [e1]; exact h.nodup⟩

/-- `createObjectStreams` either leaves the objects and counter alone or adds one object at the counter. -/
theorem create_cases (env : Env) (w : Writer) :
    ((createObjectStreams env w).1 = w ∧ (createObjectStreams env w).2 = []) ∨
    (w.useObjectStream = true ∧ ∃ o, (createObjectStreams env w).1.objects = w.objects.set w.nextObjNum o ∧
      (createObjectStreams env w).1.nextObjNum = w.nextObjNum + 1) := by
  unfold createObjectStreams
  split
  · exact Or.inl ⟨rfl, rfl⟩
  · rename_i hu
    simp only
    split
    · exact Or.inl ⟨rfl, rfl⟩
    · refine Or.inr ⟨by simpa using hu, _, rfl, rfl⟩

theorem write_objects (env : Env) (w : Writer) :
    (write env w).2.objects = (createObjectStreams env w).1.objects := by
  unfold write
  simp only
  split <;> rfl

theorem write_next (env : Env) (w : Writer) :
    (createObjectStreams env w).1.nextObjNum ≤ (write env w).2.nextObjNum := by
  unfold write
  simp only
  split
  · simp only; omega
  · exact Int.le_refl _

theorem inv_create {env : Env} {w : Writer} (h : Inv w) : Inv (createObjectStreams env w).1 := by
  rcases create_cases env w with ⟨h1, _⟩ | ⟨_, o, h1, h2⟩
  · rw [h1]; exact h
  · exact inv_objects_set h _ _ o (by omega) (by omega) _ h1 h2

theorem inv_step (env : Env) (w : Writer) (op : Op) (h : Inv w) : Inv (step env w op).1 := by
  cases op with
  | addObject c =>
    exact inv_objects_set h w.nextObjNum (w.nextObjNum + 1) _ (by omega) (by omega) _ rfl rfl
  | addStream d data c =>
    exact inv_objects_set h w.nextObjNum (w.nextObjNum + 1) _ (by omega) (by omega) _ rfl rfl
  | setObject n c =>
    exact inv_objects_set h n (if n ≥ w.nextObjNum then n + 1 else w.nextObjNum) _
      (by split <;> omega) (by split <;> omega) _ rfl rfl
  | setStream n d data c =>
    exact inv_objects_set h n (if n ≥ w.nextObjNum then n + 1 else w.nextObjNum) _
      (by split <;> omega) (by split <;> omega) _ rfl rfl
  | write =>
    exact inv_same (inv_create h) (write_objects env w) (write_next env w)
  | reserve => exact inv_same h rfl (by simp only [step]; omega)
  | _ => exact inv_same h rfl (Int.le_refl _)

theorem run_append (env : Env) (ops : List Op) (op : Op) : run env (ops ++ [op]) = (step env (run env ops) op).1 := by
  simp [run, List.foldl_append]

theorem inv_foldl (env : Env) (w : Writer) (ops : List Op) (h : Inv w) :
    Inv (ops.foldl (fun w op => (step env w op).1) w) := by
  induction ops generalizing w with
  | nil => exact h
  | cons op ops ih => exact ih _ (inv_step env w op h)

/-- Every reachable writer satisfies the invariant. -/
theorem inv_run (env : Env) (ops : List Op) : Inv (run env ops) := inv_foldl env _ ops inv_new

theorem next_mono (env : Env) (w : Writer) (op : Op) : w.nextObjNum ≤ (step env w op).1.nextObjNum := by
  cases op with
  | addObject c => simp [step, addObject]; omega
  | addStream d data c => simp [step, addStreamObject]; omega
  | setObject n c => simp only [step, setObject]; split <;> omega
  | setStream n d data c => simp only [step, setStreamObject]; split <;> omega
  | write =>
    have h1 := write_next env w
    simp only [step]
    rcases create_cases env w with ⟨h2, _⟩ | ⟨_, o, _, h2⟩
    · rw [h2] at h1; exact h1
    · omega
  | reserve => simp only [step]; omega
  | _ => exact Int.le_refl _

theorem next_mono_foldl (env : Env) (w : Writer) (ops : List Op) :
    w.nextObjNum ≤ (ops.foldl (fun w op => (step env w op).1) w).nextObjNum := by
  induction ops generalizing w with
  | nil => exact Int.le_refl _
  | cons op ops ih => exact Int.le_trans (next_mono env w op) (ih _)

/-- What a call hands out is the counter before, and the counter is above it afterwards. -/
theorem step_ret (env : Env) (w : Writer) (op : Op) (n : Int) (h : (step env w op).2 = some n) :
    n = w.nextObjNum ∧ n < (step env w op).1.nextObjNum := by
  cases op <;> simp [step, addObject, addStreamObject] at h ⊢ <;> subst h <;> exact ⟨rfl, by omega⟩

theorem named_lt (env : Env) (w : Writer) (op : Op) : ∀ n ∈ namedBy op, n < (step env w op).1.nextObjNum := by
  intro n hn
  cases op <;> simp [namedBy] at hn <;> subst hn <;>
    simp only [step, setObject, setStreamObject] <;> split <;> omega

theorem used_lt (env : Env) (w : Writer) (ops : List Op) :
    ∀ n ∈ usedNumbers env w ops, n < (ops.foldl (fun w op => (step env w op).1) w).nextObjNum := by
  induction ops generalizing w with
  | nil => simp [usedNumbers]
  | cons op ops ih =>
    intro n hn
    simp only [usedNumbers, List.mem_append] at hn
    have hm := next_mono_foldl env (step env w op).1 ops
    rcases hn with (hn | hn) | hn
    · have := named_lt env w op n hn; simp only [List.foldl_cons]; omega
    · have := step_ret env w op n (by simpa using hn); simp only [List.foldl_cons]; omega
    · exact ih _ n hn

/-! ### Reading back -/

theorem getObject_set (w w' : Writer) (n m : Int) (o : Obj) (h : w'.objects = w.objects.set n o) :
    getObject w' m = if m = n then (match o.content with | some c => some c | none => o.stream)
      else getObject w m := by
  unfold getObject
  rw [h, Map.get_set]
  by_cases hm : m = n
  · simp only [hm, if_true]
    rfl
  · simp only [hm, if_false]

theorem getObject_same (w w' : Writer) (m : Int) (h : w'.objects = w.objects) : getObject w' m = getObject w m := by
  unfold getObject; rw [h]

theorem prepare_fst (env : Env) (w : Writer) (d : DictArg) (data : Option Bytes) (compress : Bool) :
    (prepareStream env w d data compress).1 =
      (if compress = true ∧ data.getD [] ≠ [] then some (env.z (data.getD [])) else data) := by
  unfold prepareStream
  have : (compress && decide ((data.getD []).length > 0)) = true ↔ (compress = true ∧ data.getD [] ≠ []) := by
    rw [Bool.and_eq_true, decide_eq_true_eq, gt_iff_lt, List.length_pos_iff]
  cases d <;> simp only [this]

theorem lastStored_append (a b : List (Int × Option Bytes)) (n : Int) (h : n ∉ b.map (·.1)) :
    lastStored (a ++ b) n = lastStored a n := by
  unfold lastStored
  rw [List.reverse_append, List.find?_append]
  have : b.reverse.find? (fun e => decide (e.1 = n)) = none := by
    rw [List.find?_eq_none]
    intro e he
    simp at he ⊢
    rintro rfl
    exact h (List.mem_map.2 ⟨e, he, rfl⟩)
  rw [this]; rfl

theorem lastStored_snoc (a : List (Int × Option Bytes)) (n : Int) (c : Option Bytes) :
    lastStored (a ++ [(n, c)]) n = c := by
  simp [lastStored]

theorem stores_append (env : Env) (w : Writer) (ops : List Op) (op : Op) :
    stores env w (ops ++ [op]) = stores env w ops ++
      stores env (ops.foldl (fun w op => (step env w op).1) w) [op] := by
  induction ops generalizing w with
  | nil => simp [stores]
  | cons o ops ih => simp only [List.cons_append, stores, ih, List.foldl_cons, List.append_assoc]

theorem usedNumbers_append (env : Env) (w : Writer) (ops : List Op) (op : Op) :
    usedNumbers env w (ops ++ [op]) = usedNumbers env w ops ++
      usedNumbers env (ops.foldl (fun w op => (step env w op).1) w) [op] := by
  induction ops generalizing w with
  | nil => simp [usedNumbers]
  | cons o ops ih => simp only [List.cons_append, usedNumbers, ih, List.foldl_cons, List.append_assoc]

/-- One call stores at most one object: either nothing relevant to `m` changes, or the event list gets
exactly the new content. -/
theorem get_step (env : Env) (w : Writer) (op : Op) (m : Int) (hop : op ≠ .write) (evs : List (Int × Option Bytes))
    (h : getObject w m = lastStored evs m ∨ m ∈ (stores env w [op]).map (·.1)) :
    getObject (step env w op).1 m = lastStored (evs ++ stores env w [op]) m := by
  have one : ∀ (w' : Writer) (n : Int) (o : Obj) (c : Option Bytes),
      w'.objects = w.objects.set n o → (match o.content with | some c => some c | none => o.stream) = c →
      (getObject w m = lastStored evs m ∨ m ∈ [(n, c)].map (·.1)) →
      getObject w' m = lastStored (evs ++ [(n, c)]) m := by
    intro w' n o c h1 h2 h
    rw [getObject_set w w' n m o h1, h2]
    split
    · subst_vars; rw [lastStored_snoc]
    · rename_i hmn
      rcases h with h | h
      · rw [lastStored_append _ _ _ (by simpa using hmn), h]
      · simp at h; exact absurd h hmn
  have none' : ∀ w' : Writer, w'.objects = w.objects →
      (getObject w m = lastStored evs m ∨ m ∈ ([] : List (Int × Option Bytes)).map (·.1)) →
      getObject w' m = lastStored (evs ++ []) m := by
    intro w' h1 h
    rcases h with h | h
    · rw [getObject_same _ _ _ h1, List.append_nil, h]
    · simp at h
  cases op with
  | addObject c =>
    simp only [stores, step, addObject, storedBy, namedBy, Option.toList, List.flatMap_cons, List.flatMap_nil,
      List.append_nil, List.nil_append, List.map_cons, List.map_nil] at h ⊢
    exact one _ _ _ c rfl (by cases c <;> rfl) (by simpa using h)
  | addStream d data c =>
    simp only [stores, step, addStreamObject, storedBy, namedBy, Option.toList, List.flatMap_cons, List.flatMap_nil,
      List.append_nil, List.nil_append, List.map_cons, List.map_nil] at h ⊢
    exact one _ _ _ _ rfl (prepare_fst env w d data c) (by simpa using h)
  | setObject n c =>
    simp only [stores, step, setObject, storedBy, namedBy, Option.toList, List.flatMap_cons, List.flatMap_nil,
      List.append_nil, List.map_cons, List.map_nil] at h ⊢
    exact one _ _ _ c rfl (by cases c <;> rfl) (by simpa using h)
  | setStream n d data c =>
    simp only [stores, step, setStreamObject, storedBy, namedBy, Option.toList, List.flatMap_cons, List.flatMap_nil,
      List.append_nil, List.map_cons, List.map_nil] at h ⊢
    exact one _ _ _ _ rfl (prepare_fst env w d data c) (by simpa using h)
  | write => exact absurd rfl hop
  | _ => exact none' _ rfl (by simpa [stores, storedBy] using h)

theorem stores_keys_used (env : Env) (w : Writer) (ops : List Op) :
    ∀ e ∈ stores env w ops, e.1 ∈ usedNumbers env w ops := by
  induction ops generalizing w with
  | nil => simp [stores]
  | cons op ops ih =>
    intro e he
    simp only [stores, List.mem_append, List.mem_flatMap, List.mem_map] at he
    simp only [usedNumbers, List.mem_append]
    rcases he with ⟨c, _, n, hn, rfl⟩ | he
    · exact Or.inl hn
    · exact Or.inr (ih _ e he)

theorem stores_one_keys (env : Env) (w : Writer) (op : Op) :
    (stores env w [op]).map (·.1) = usedNumbers env w [op] := by
  cases op <;> simp [stores, usedNumbers, storedBy, namedBy, step, addObject, addStreamObject]

theorem get_write (env : Env) (w : Writer) (m : Int)
    (h : m < w.nextObjNum ∨ w.useObjectStream = false) :
    getObject (step env w .write).1 m = getObject w m := by
  have hw : (step env w .write).1.objects = (createObjectStreams env w).1.objects := write_objects env w
  rw [getObject_same (createObjectStreams env w).1 _ m hw]
  rcases create_cases env w with ⟨h1, _⟩ | ⟨h0, o, h1, _⟩
  · rw [h1]
  · rw [getObject_set w _ _ m o h1]
    rcases h with h | h
    · rw [if_neg (by omega)]
    · rw [h0] at h; simp at h

/-- For a number in play, reading back gives the last stored content, in every history. -/
theorem get_used (env : Env) (ops : List Op) (m : Int) :
    m ∈ usedNumbers env newWriter ops →
    getObject (run env ops) m = lastStored (stores env newWriter ops) m := by
  induction ops using snoc_induction with
  | nil => simp [usedNumbers]
  | snoc ops op ih =>
    intro hm
    rw [run_append, stores_append]
    rw [usedNumbers_append, List.mem_append] at hm
    by_cases hop : op = .write
    · subst hop
      have hm : m ∈ usedNumbers env newWriter ops := by
        rcases hm with hm | hm
        · exact hm
        · simp [usedNumbers, namedBy, step] at hm
      rw [get_write env (run env ops) m (Or.inl (used_lt env newWriter ops m hm)), ih hm]
      simp [stores, storedBy]
    · refine get_step env _ op m hop _ ?_
      rcases hm with hm | hm
      · exact Or.inl (ih hm)
      · exact Or.inr (by rw [stores_one_keys]; exact hm)

/-- Object streams are never switched on by these calls. -/
theorem noStm (env : Env) (ops : List Op) (h : ∀ on, .useObjectStream on ∈ ops → on = false) :
    (run env ops).useObjectStream = false := by
  induction ops using snoc_induction with
  | nil => rfl
  | snoc ops op ih =>
    rw [run_append]
    have ih := ih (fun on hon => h on (by simp [hon]))
    cases op with
    | useObjectStream on => exact h on (by simp)
    | write =>
      simp only [step, write]
      have : createObjectStreams env (run env ops) = (run env ops, []) := by
        unfold createObjectStreams; simp [ih]
      rw [this]
      simp only
      split <;> exact ih
    | _ => exact ih

theorem get_all (env : Env) (ops : List Op) (m : Int) (h : ∀ on, .useObjectStream on ∈ ops → on = false) :
    getObject (run env ops) m = lastStored (stores env newWriter ops) m := by
  induction ops using snoc_induction with
  | nil => rfl
  | snoc ops op ih =>
    have h' : ∀ on, .useObjectStream on ∈ ops → on = false := fun on hon => h on (by simp [hon])
    have ih := ih h'
    rw [run_append, stores_append]
    by_cases hop : op = .write
    · subst hop
      rw [get_write env _ m (Or.inr (noStm env ops h')), ih]
      simp [stores, storedBy]
    · exact get_step env _ op m hop _ (Or.inl ih)

/-! ### Layout of the written file -/

theorem keys_nil {κ ν : Type} : Map.keys ([] : Map κ ν) = [] := rfl
theorem keys_cons {κ ν : Type} (k : κ) (v : ν) (m : List (κ × ν)) : Map.keys ((k, v) :: m) = k :: Map.keys m := rfl

/-- Positions recorded by the loop: one for each object not skipped, in the same order. -/
theorem writeObjs_keys (env : Env) (skip : Int → Bool) (pos : Nat) (heap : List Dict) (l : List (Int × Obj)) :
    (writeObjs env skip pos heap l).2.1.keys = (l.map (·.1)).filter (fun n => !skip n) := by
  induction l generalizing pos heap with
  | nil => rfl
  | cons e rest ih =>
    obtain ⟨n, o⟩ := e
    simp only [writeObjs, List.map_cons]
    by_cases hs : skip n = true
    · simp [hs, ih]
    · simp only [Bool.not_eq_true] at hs
      simp [hs, keys_cons, ih]

theorem drop_append_prefix {x a b : Bytes} {i : Nat} (h : x <+: b.drop i) : x <+: (a ++ b).drop (a.length + i) := by
  simpa using h

/-- At every recorded position the text of that object begins (for the heap in force at that moment,
which has the same length). -/
theorem writeObjs_at (env : Env) (skip : Int → Bool) (pos : Nat) (heap : List Dict) (l : List (Int × Obj))
    (P : List Dict → Prop) (hP : P heap) (hstep : ∀ n o heap, (n, o) ∈ l → P heap → P (objText env heap n o).2)
    (n : Int) (p : Nat) (h : (n, p) ∈ (writeObjs env skip pos heap l).2.1) :
    ∃ o heap1 k, (n, o) ∈ l ∧ P heap1 ∧ p = pos + k ∧
      (objText env heap1 n o).1 <+: (writeObjs env skip pos heap l).1.drop k ∧
      k < (writeObjs env skip pos heap l).1.length := by
  induction l generalizing pos heap with
  | nil => simp [writeObjs] at h
  | cons e rest ih =>
    obtain ⟨m, o⟩ := e
    simp only [writeObjs] at h ⊢
    by_cases hs : skip m = true
    · simp only [hs, if_true] at h ⊢
      obtain ⟨o', h1, k, a, q, b, c, d⟩ := ih _ _ hP (fun n o hp hm => hstep n o hp (by simp [hm])) h
      exact ⟨o', h1, k, List.mem_cons_of_mem _ a, q, b, c, d⟩
    · simp only [hs, Bool.false_eq_true, if_false] at h ⊢
      rcases List.mem_cons.1 h with h | h
      · simp only [Prod.mk.injEq] at h
        obtain ⟨rfl, rfl⟩ := h
        refine ⟨o, heap, 0, by simp, hP, by omega, by simp, ?_⟩
        have : 0 < (objText env heap n o).1.length := by
          unfold objText
          cases o.stream <;> simp <;> omega
        simp; omega
      · obtain ⟨o', h1, k, a, q, b, c, d⟩ := ih _ _ (hstep m o heap (by simp) hP)
          (fun n o hp hm => hstep n o hp (by simp [hm])) h
        refine ⟨o', h1, (objText env heap m o).1.length + k, List.mem_cons_of_mem _ a, q, by omega,
          drop_append_prefix c, ?_⟩
        simp; omega

theorem sortedObjs_mem (env : Env) (henv : ∀ l, (env.order l).Perm l) (w : Writer) (n : Int) (o : Obj) :
    (n, o) ∈ sortedObjs env w ↔ w.objects.get n = some o := by
  unfold sortedObjs
  simp only [List.mem_filterMap]
  constructor
  · rintro ⟨m, _, hm⟩
    cases hg : w.objects.get m with
    | none => rw [hg] at hm; simp at hm
    | some o' => rw [hg] at hm; simp at hm; obtain ⟨rfl, rfl⟩ := hm; exact hg
  · intro hg
    refine ⟨n, ?_, by rw [hg]; rfl⟩
    rw [(sortBy_perm _ _).mem_iff, (henv _).mem_iff]
    exact (Map.get_isSome_iff _ _).1 (by rw [hg]; rfl)

theorem filterMap_keys_get {w : Writer} (l : List Int) (h : ∀ n ∈ l, n ∈ w.objects.keys) :
    (l.filterMap (fun n => (w.objects.get n).map (fun o => (n, o)))).map (·.1) = l := by
  induction l with
  | nil => rfl
  | cons n rest ih =>
    have hn := (Map.get_isSome_iff w.objects n).2 (h n (by simp))
    obtain ⟨o, ho⟩ := Option.isSome_iff_exists.1 hn
    have ih := ih (fun m hm => h m (by simp [hm]))
    simp [ho, ih]

theorem sortedObjs_keys (env : Env) (henv : ∀ l, (env.order l).Perm l) (w : Writer) :
    ((sortedObjs env w).map (·.1)).Perm w.objects.keys := by
  unfold sortedObjs
  have hp : (sortBy (fun a b => decide (a ≤ b)) (env.order w.objects.keys)).Perm w.objects.keys :=
    (sortBy_perm _ _).trans (henv _)
  rw [filterMap_keys_get _ (fun n hn => hp.mem_iff.1 hn)]
  exact hp

/-- The body and positions of `Write` in table mode without object streams. -/
def tableBody (env : Env) (w : Writer) : Bytes × Map Int Nat × List Dict :=
  writeObjs env (fun _ => false) (header w.pdfVersion).length w.heap (sortedObjs env w)

theorem create_off (env : Env) (w : Writer) (ho : w.useObjectStream = false) :
    createObjectStreams env w = (w, []) := by
  unfold createObjectStreams; simp [ho]

theorem write_table (env : Env) (w : Writer) (hx : w.useXRefStream = false) (ho : w.useObjectStream = false) :
    write env w =
      (header w.pdfVersion ++ (tableBody env w).1 ++ xrefTable w.nextObjNum (tableBody env w).2.1 ++ trailer w ++
        startxref ((header w.pdfVersion).length + (tableBody env w).1.length),
       { w with heap := (tableBody env w).2.2 }) := by
  unfold write
  rw [create_off env w ho]
  simp [hx, tableBody, Map.get]

theorem tableBody_keys (env : Env) (henv : ∀ l, (env.order l).Perm l) (w : Writer) :
    ((tableBody env w).2.1.keys).Perm w.objects.keys := by
  unfold tableBody
  rw [writeObjs_keys]
  rw [List.filter_eq_self.2 (by simp)]
  exact sortedObjs_keys env henv w

theorem tableLine_length (ps : Map Int Nat) (i : Nat) (h : ∀ e ∈ ps, e.2 < 10 ^ 10) :
    (tableLine ps i).length = 20 := by
  unfold tableLine
  split
  · rename_i pos hp
    have hm : ∃ e ∈ ps, e.2 = pos := by
      unfold Map.get at hp
      cases hf : List.find? (fun e => decide (e.1 = (i : Int))) ps with
      | none => rw [hf] at hp; simp at hp
      | some e => rw [hf] at hp; simp at hp; exact ⟨e, List.mem_of_find?_eq_some hf, hp⟩
    obtain ⟨e, he, rfl⟩ := hm
    have h1 := padDec_length 10 e.2 (by decide) (h e he)
    have h2 := padDec_length 5 0 (by decide) (by decide)
    simp only [List.length_append, h1, h2]; rfl
  · have h1 := padDec_length 10 0 (by decide) (by decide)
    have h2 := padDec_length 5 1 (by decide) (by decide)
    simp only [List.length_append, h1, h2]; rfl

/-! ### /Length -/

/-- The dictionary `d` of the stream object `n` with data `s` has a single /Length, and it is the
length of the data or of the data as encrypted. -/
def LenIs (env : Env) (n : Int) (s : Bytes) (d : Dict) : Prop :=
  d.keys.Nodup ∧ b!"/Length" ∉ d.keys ∧
  (d.get b!"Length" = some (.int s.length) ∨
   ∃ enc e, env.crypt = some enc ∧ enc n s = some e ∧ d.get b!"Length" = some (.int e.length))

/-- Every stream object has its own dictionary with the right /Length. -/
structure HeapOK (env : Env) (objs : Map Int Obj) (heap : List Dict) : Prop where
  len : ∀ n o s, objs.get n = some o → o.stream = some s →
    ∃ a, o.dict = some a ∧ a < heap.length ∧ LenIs env n s (heap.getD a [])
  addr : ∀ n o a, objs.get n = some o → o.dict = some a → a < heap.length
  inj : ∀ n o n' o' a, objs.get n = some o → objs.get n' = some o' → o.dict = some a → o'.dict = some a → n = n'

theorem getD_set_ne (heap : List Dict) (a b : Nat) (d : Dict) (h : a ≠ b) :
    (heap.set a d).getD b [] = heap.getD b [] := by
  simp [List.getD_eq_getElem?_getD, h]

theorem getD_set_eq (heap : List Dict) (a : Nat) (d : Dict) (h : a < heap.length) :
    (heap.set a d).getD a [] = d := by
  simp [List.getD_eq_getElem?_getD, h]

theorem lenIs_set (env : Env) (n : Int) (s : Bytes) (d : Dict) (h : LenIs env n s d) (v : PVal)
    (hv : v = .int s.length ∨ ∃ enc e, env.crypt = some enc ∧ enc n s = some e ∧ v = .int e.length) :
    LenIs env n s (d.set b!"Length" v) := by
  refine ⟨Map.nodup_set _ _ _ h.1, ?_, ?_⟩
  · rw [Map.mem_keys_set]
    rintro (h' | h')
    · revert h'; decide
    · exact h.2.1 h'
  · rw [Map.get_set_eq]
    rcases hv with rfl | ⟨enc, e, h1, h2, rfl⟩
    · exact Or.inl rfl
    · exact Or.inr ⟨enc, e, h1, h2, rfl⟩

theorem objText_heap (env : Env) (objs : Map Int Obj) (heap : List Dict) (n : Int) (o : Obj)
    (hg : objs.get n = some o) (h : HeapOK env objs heap) : HeapOK env objs (objText env heap n o).2 := by
  unfold objText
  cases hs : o.stream with
  | none => exact h
  | some s =>
    obtain ⟨a, ha, hal, hl⟩ := h.len n o s hg hs
    simp only [ha, Option.getD_some]
    cases hc : env.crypt with
    | none => exact h
    | some enc =>
      cases he : enc n s with
      | none => simpa [he] using h
      | some e =>
        simp only [he]
        constructor
        · intro m o' s' hg' hs'
          obtain ⟨b, hb, hbl, hl'⟩ := h.len m o' s' hg' hs'
          refine ⟨b, hb, by simpa using hbl, ?_⟩
          by_cases hab : a = b
          · subst hab
            have hnm := h.inj n o m o' a hg hg' ha hb
            subst hnm
            rw [hg] at hg'; cases hg'
            rw [hs] at hs'; cases hs'
            rw [getD_set_eq _ _ _ hal]
            exact lenIs_set env n s _ hl _ (Or.inr ⟨enc, e, hc, he, rfl⟩)
          · rw [getD_set_ne _ _ _ _ hab]; exact hl'
        · intro m o' b hg' hb
          simpa using h.addr m o' b hg' hb
        · exact h.inj

theorem writeObjs_heap (env : Env) (objs : Map Int Obj) (skip : Int → Bool) (pos : Nat) (heap : List Dict)
    (l : List (Int × Obj)) (hl : ∀ n o, (n, o) ∈ l → objs.get n = some o) (h : HeapOK env objs heap) :
    HeapOK env objs (writeObjs env skip pos heap l).2.2 := by
  induction l generalizing pos heap with
  | nil => exact h
  | cons e rest ih =>
    obtain ⟨n, o⟩ := e
    simp only [writeObjs]
    split
    · exact ih _ _ (fun n o hm => hl n o (by simp [hm])) h
    · exact ih _ _ (fun n o hm => hl n o (by simp [hm])) (objText_heap env objs heap n o (hl n o (by simp)) h)

/-- Apart from /Length, the dictionaries have the same entries. -/
def SameButLength (heap heap' : List Dict) : Prop :=
  ∀ a k, k ≠ b!"Length" → (heap'.getD a []).get k = (heap.getD a []).get k

/-- Printing an object changes nothing but /Length in the dictionaries. -/
theorem objText_same (env : Env) (heap : List Dict) (n : Int) (o : Obj) : SameButLength heap (objText env heap n o).2 := by
  intro a k hk
  unfold objText
  cases hs : o.stream with
  | none => rfl
  | some s =>
    cases hc : env.crypt with
    | none => rfl
    | some enc =>
      cases he : enc n s with
      | none => simp only [he]
      | some e =>
        simp only [he]
        by_cases hab : o.dict.getD 0 = a
        · subst hab
          by_cases hl : o.dict.getD 0 < heap.length
          · rw [getD_set_eq _ _ _ hl]
            exact Map.get_set_ne _ _ hk
          · rw [List.set_eq_of_length_le (by omega)]
        · rw [getD_set_ne _ _ _ _ hab]

/-- The text of a stream object whose dictionary is in order. -/
theorem objText_stream (env : Env) (objs : Map Int Obj) (heap : List Dict) (n : Int) (o : Obj) (s : Bytes)
    (hg : objs.get n = some o) (hs : o.stream = some s) (h : HeapOK env objs heap) :
    ∃ d data, (objText env heap n o).1 =
        itoa n ++ b!" 0 obj\n" ++ formatDictionary d ++ b!"\nstream\n" ++ data ++ b!"\nendstream" ++ b!"\nendobj\n" ∧
      data = (match env.crypt with | none => s | some enc => (enc n s).getD s) ∧
      d.keys.Nodup ∧ b!"/Length" ∉ d.keys ∧ d.get b!"Length" = some (.int data.length) ∧
      ∀ k, k ≠ b!"Length" → d.get k = (heap.getD (o.dict.getD 0) []).get k := by
  unfold objText
  obtain ⟨a, ha, hal, hl⟩ := h.len n o s hg hs
  simp only [hs, ha, Option.getD_some]
  cases hc : env.crypt with
  | none =>
    refine ⟨heap.getD a [], s, by simp, rfl, hl.1, hl.2.1, ?_, fun _ _ => rfl⟩
    rcases hl.2.2 with h' | ⟨enc, _, h', _⟩
    · exact h'
    · rw [hc] at h'; simp at h'
  | some enc =>
    cases he : enc n s with
    | none =>
      refine ⟨heap.getD a [], s, by simp only [he], by simp [he], hl.1, hl.2.1, ?_, fun _ _ => rfl⟩
      rcases hl.2.2 with h' | ⟨enc', e, h1, h2, _⟩
      · exact h'
      · rw [hc] at h1; cases h1; rw [he] at h2; simp at h2
    | some e =>
      refine ⟨(heap.getD a []).set b!"Length" (.int e.length), e, ?_, by simp [he], ?_, ?_, Map.get_set_eq _ _ _,
        fun k hk => Map.get_set_ne _ _ hk⟩
      · simp only [he, getD_set_eq _ _ _ hal]
      · exact Map.nodup_set _ _ _ hl.1
      · rw [Map.mem_keys_set]
        rintro (h' | h')
        · revert h'; decide
        · exact hl.2.1 h'

/-- The dictionary arguments of a call are map literals without a "/Length" key. -/
def FreshDict : Op → Prop
  | .addStream d _ _ => ∃ m, d = .fresh m ∧ m.keys.Nodup ∧ b!"/Length" ∉ m.keys
  | .setStream _ d _ _ => ∃ m, d = .fresh m ∧ m.keys.Nodup ∧ b!"/Length" ∉ m.keys
  | .useObjectStream on => on = false
  | _ => True

theorem heapOK_append (env : Env) (objs : Map Int Obj) (heap : List Dict) (d : Dict) (h : HeapOK env objs heap) :
    HeapOK env objs (heap ++ [d]) := by
  constructor
  · intro n o s hg hs
    obtain ⟨a, ha, hal, hl⟩ := h.len n o s hg hs
    refine ⟨a, ha, by simp; omega, ?_⟩
    rw [List.getD_eq_getElem?_getD, List.getElem?_append_left hal, ← List.getD_eq_getElem?_getD]
    exact hl
  · intro n o a hg ha
    have := h.addr n o a hg ha
    simp; omega
  · exact h.inj

theorem heapOK_setContent (env : Env) (objs : Map Int Obj) (heap : List Dict) (k : Int) (c : Option Bytes)
    (h : HeapOK env objs heap) :
    HeapOK env (objs.set k { content := c, stream := none, dict := none }) heap := by
  constructor
  · intro n o s hg hs
    rw [Map.get_set] at hg
    split at hg
    · cases hg; simp at hs
    · exact h.len n o s hg hs
  · intro n o a hg ha
    rw [Map.get_set] at hg
    split at hg
    · cases hg; simp at ha
    · exact h.addr n o a hg ha
  · intro n o n' o' a hg hg' ha ha'
    rw [Map.get_set] at hg hg'
    split at hg
    · cases hg; simp at ha
    · split at hg'
      · cases hg'; simp at ha'
      · exact h.inj n o n' o' a hg hg' ha ha'

theorem heapOK_setStream (env : Env) (w : Writer) (k : Int) (m : Dict) (data : Option Bytes)
    (compress : Bool) (hm : m.keys.Nodup) (hm2 : b!"/Length" ∉ m.keys) (h : HeapOK env w.objects w.heap) :
    HeapOK env (w.objects.set k { content := none, stream := (prepareStream env w (.fresh m) data compress).1,
                                  dict := some (prepareStream env w (.fresh m) data compress).2.2 })
      (prepareStream env w (.fresh m) data compress).2.1 := by
  have key : ∀ sd : Option Bytes, ∀ d1 : Dict, d1.keys.Nodup → b!"/Length" ∉ d1.keys →
      HeapOK env (w.objects.set k { content := none, stream := sd, dict := some w.heap.length })
        (w.heap ++ [d1.set b!"Length" (.int (sd.getD []).length)]) := by
    intro sd d1 hd1 hd2
    have h' := heapOK_append env _ _ (d1.set b!"Length" (.int (sd.getD []).length)) h
    constructor
    · intro n o s hg hs
      rw [Map.get_set] at hg
      split at hg
      · cases hg
        simp only at hs
        subst hs
        refine ⟨_, rfl, by simp, ?_⟩
        simp only [List.getD_eq_getElem?_getD, List.getElem?_append_right (Nat.le_refl _), Nat.sub_self,
          List.getElem?_cons_zero, Option.getD_some]
        refine ⟨Map.nodup_set _ _ _ hd1, ?_, Or.inl (Map.get_set_eq _ _ _)⟩
        rw [Map.mem_keys_set]
        rintro (h' | h')
        · revert h'; decide
        · exact hd2 h'
      · exact h'.len n o s hg hs
    · intro n o a hg ha
      rw [Map.get_set] at hg
      split at hg
      · cases hg; simp at ha; subst ha; simp
      · exact h'.addr n o a hg ha
    · intro n o n' o' a hg hg' ha ha'
      rw [Map.get_set] at hg hg'
      split at hg
      · cases hg
        simp at ha; subst ha
        split at hg'
        · subst_vars; rfl
        · have := h.addr n' o' _ hg' ha'; omega
      · split at hg'
        · cases hg'
          simp at ha'; subst ha'
          have := h.addr n o _ hg ha; omega
        · exact h.inj n o n' o' a hg hg' ha ha'
  unfold prepareStream
  simp only
  apply key
  · split
    · exact Map.nodup_set _ _ _ hm
    · exact hm
  · split
    · rw [Map.mem_keys_set]
      rintro (h' | h')
      · revert h'; decide
      · exact hm2 h'
    · exact hm2

theorem heapOK_run (env : Env) (henv : ∀ l, (env.order l).Perm l) (ops : List Op) (hops : ∀ op ∈ ops, FreshDict op) :
    HeapOK env (run env ops).objects (run env ops).heap := by
  induction ops using snoc_induction with
  | nil =>
    constructor <;> intros <;> simp_all [run, newWriter, Map.get]
  | snoc ops op ih =>
    have ih := ih (fun o ho => hops o (by simp [ho]))
    have hop := hops op (by simp)
    rw [run_append]
    have hno : (run env ops).useObjectStream = false := by
      apply noStm
      intro on hon
      exact hops _ (List.mem_append_left _ hon)
    cases op with
    | addObject c => exact heapOK_setContent env _ _ _ c ih
    | setObject n c => exact heapOK_setContent env _ _ _ c ih
    | addStream d data c =>
      obtain ⟨m, rfl, h1, h2⟩ := hop
      exact heapOK_setStream env _ _ m data c h1 h2 ih
    | setStream n d data c =>
      obtain ⟨m, rfl, h1, h2⟩ := hop
      exact heapOK_setStream env _ _ m data c h1 h2 ih
    | write =>
      simp only [step, write]
      rw [create_off env _ hno]
      simp only
      have := writeObjs_heap env (run env ops).objects (fun n => (Map.get ([] : Map Int StmRef) n).isSome)
        (header (run env ops).pdfVersion).length (run env ops).heap (sortedObjs env (run env ops))
        (fun n o hm => (sortedObjs_mem env henv _ n o).1 hm) ih
      split <;> exact this
    | _ => exact ih

end Pdfer.Writer
