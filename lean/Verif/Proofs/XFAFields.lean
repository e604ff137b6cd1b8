import Verif.Spec.XFA
import Verif.Proofs.Text

/-! Proofs about the XFA field parser. -/

namespace Pdfer.XFA

open Pdfer.Go Pdfer.Forms Pdfer.Spec.XFA

theorem reWord_id (c : UInt8) : reWord c = true ↔ IdByte c := by
  have h : ∀ c : UInt8, (reWord c = true) ↔ ((65 ≤ c ∧ c ≤ 90) ∨ (97 ≤ c ∧ c ≤ 122) ∨ (48 ≤ c ∧ c ≤ 57) ∨ c = 95) :=
    forall_byte (p := fun c => (reWord c = true) ↔ ((65 ≤ c ∧ c ≤ 90) ∨ (97 ≤ c ∧ c ≤ 122) ∨ (48 ≤ c ∧ c ≤ 57) ∨ c = 95)) (by decide +kernel)
  exact h c

theorem idChar_id {c d : UInt8} (h : idChar c = some d) : IdByte d := by
  unfold idChar at h
  split at h
  · rename_i hw; injection h with h; subst h; exact (reWord_id _).1 hw
  · split at h
    · injection h with h; subst h; exact .inr (.inr (.inr rfl))
    · simp at h

theorem sanitize_valid (name : Bytes) : ValidId (sanitizeFieldID name) := by
  unfold sanitizeFieldID
  simp only
  have hall : ∀ c ∈ (if name.filterMap idChar = [] then b!"field" else name.filterMap idChar), IdByte c := by
    split
    · intro c hc
      rw [← reWord_id]
      revert c; decide
    · intro c hc
      obtain ⟨a, _, ha⟩ := List.mem_filterMap.1 hc
      exact idChar_id ha
  have hne : (if name.filterMap idChar = [] then b!"field" else name.filterMap idChar) ≠ [] := by
    split
    · decide
    · assumption
  generalize (if name.filterMap idChar = [] then b!"field" else name.filterMap idChar) = id at hall hne
  split
  · refine ⟨by simp, ?_, ?_⟩
    · intro c hc
      rw [List.mem_append] at hc
      rcases hc with hc | hc
      · rw [← reWord_id]; revert c; decide
      · exact hall c hc
    · intro c hc
      have : c = 102 := by simp at hc; exact hc.symm
      subst this; decide
  · rename_i hd
    refine ⟨hne, hall, ?_⟩
    intro c hc hdig
    cases id with
    | nil => simp at hc
    | cons x xs =>
      simp at hc; subst hc
      apply hd
      simpa [isDigit] using hdig

theorem filterMap_id {s : Bytes} (h : ∀ c ∈ s, IdByte c) : s.filterMap idChar = s := by
  induction s with
  | nil => rfl
  | cons c s ih =>
    have : idChar c = some c := by unfold idChar; rw [if_pos ((reWord_id c).2 (h c (List.mem_cons_self ..)))]
    rw [List.filterMap_cons, this, ih fun c hc => h c (List.mem_cons_of_mem _ hc)]

theorem sanitize_id {s : Bytes} (h : ValidId s) : sanitizeFieldID s = s := by
  unfold sanitizeFieldID
  simp only
  rw [filterMap_id h.2.1, if_neg h.1]
  cases s with
  | nil => exact absurd rfl h.1
  | cons x xs =>
    have := h.2.2 x rfl
    rw [if_neg]
    simpa [isDigit] using this

theorem mapType_mem (t : Bytes) : mapType t ∈ Types := by
  unfold mapType
  simp only
  repeat' split
  all_goals decide

theorem fieldN_valid (i : Nat) : ValidId (fieldN i) := by
  unfold fieldN
  refine ⟨by simp, ?_, ?_⟩
  · intro c hc
    rw [List.mem_append] at hc
    rcases hc with hc | hc
    · rw [← reWord_id]; revert c; decide
    · have := natDec_digits i c hc
      unfold isDigit at this
      simp only [Bool.and_eq_true, decide_eq_true_eq] at this
      exact .inr (.inr (.inl this))
  · intro c hc
    have : c = 102 := by simp at hc; exact hc.symm
    subst this; decide

/-- What holds of a field under construction. -/
structure Partial (f : XField) : Prop where
  full : f.fullName = f.name
  id : f.name ≠ [] → f.id = sanitizeFieldID f.name
  type : f.type ∈ Types

/-- What holds of a finished field. -/
structure Whole (f : XField) : Prop extends Partial f where
  named : f.name ≠ []

theorem attrStep_partial (p : XField × Bytes × Bytes) (a : Bytes × Bytes) (h : Partial p.1) : Partial (attrStep p a).1 := by
  obtain ⟨f, n, r⟩ := p
  unfold attrStep
  simp only
  split
  · exact ⟨rfl, fun _ => rfl, h.type⟩
  · split
    · exact ⟨h.full, h.id, mapType_mem _⟩
    · split
      · exact h
      · split
        · split
          · exact ⟨h.full, h.id, h.type⟩
          · exact h
        · split
          · exact ⟨h.full, h.id, h.type⟩
          · exact h

theorem attrs_partial (as : List (Bytes × Bytes)) (p : XField × Bytes × Bytes) (h : Partial p.1) : Partial (as.foldl attrStep p).1 := by
  induction as generalizing p with
  | nil => exact h
  | cons a as ih => exact ih _ (attrStep_partial p a h)

theorem finish_whole (st : PState) (f : XField) (h : Partial f) : Whole (finish st f) := by
  unfold finish
  simp only
  have h1 : Whole (if f.name = [] then
      (if st.name ≠ [] then { f with name := st.name, fullName := st.name, id := sanitizeFieldID st.name }
       else { f with name := fieldN st.index, fullName := fieldN st.index, id := fieldN st.index })
    else f) := by
    split
    · split
      · rename_i hn
        exact ⟨⟨rfl, fun _ => rfl, h.type⟩, hn⟩
      · exact ⟨⟨rfl, fun _ => (sanitize_id (fieldN_valid _)).symm, h.type⟩, (fieldN_valid _).1⟩
    · rename_i hn; exact ⟨h, hn⟩
  generalize (if f.name = [] then
      (if st.name ≠ [] then { f with name := st.name, fullName := st.name, id := sanitizeFieldID st.name }
       else { f with name := fieldN st.index, fullName := fieldN st.index, id := fieldN st.index })
    else f) = g at h1
  have hty : g.type ≠ [] := by
    have := h1.type
    intro h0
    rw [h0] at this
    revert this; decide
  rw [if_neg hty]
  have h2 : Whole (if st.value ≠ [] then { g with dflt := some (trimSpace st.value) } else g) := by
    split
    · exact ⟨⟨h1.full, h1.id, h1.type⟩, h1.named⟩
    · exact h1
  generalize (if st.value ≠ [] then { g with dflt := some (trimSpace st.value) } else g) = k at h2
  have h3 : Whole (if st.label ≠ [] then { k with label := some (trimSpace st.label) } else k) := by
    split
    · exact ⟨⟨h2.full, h2.id, h2.type⟩, h2.named⟩
    · exact h2
  generalize (if st.label ≠ [] then { k with label := some (trimSpace st.label) } else k) = l at h3
  exact ⟨⟨h3.full, h3.id, h3.type⟩, h3.named⟩

/-- The invariant of the parser's loop. -/
structure FInv (st : PState) : Prop where
  done : ∀ f ∈ st.fields, Whole f
  cur : ∀ f, st.cur = some f → Partial f

theorem step_inv (st : PState) (t : Tok) (h : FInv st) : FInv (parseStep st t) := by
  cases t with
  | start n attrs =>
    unfold parseStep
    simp only
    split
    · refine ⟨h.done, ?_⟩
      intro f hf
      injection hf with hf
      subst hf
      exact attrs_partial _ _ ⟨rfl, fun h0 => absurd rfl h0, by show b!"text" ∈ Types; decide⟩
    · split
      · exact ⟨h.done, h.cur⟩
      · split
        · exact ⟨h.done, h.cur⟩
        · split <;> exact ⟨h.done, h.cur⟩
  | close n =>
    unfold parseStep
    simp only
    split
    · refine ⟨?_, by simp⟩
      cases hc : st.cur with
      | none => exact h.done
      | some f =>
        intro g hg
        simp only [List.mem_append, List.mem_singleton] at hg
        rcases hg with hg | hg
        · exact h.done g hg
        · subst hg; exact finish_whole st f (h.cur f hc)
    · split
      · refine ⟨h.done, ?_⟩
        intro g hg
        simp only at hg
        cases hc : st.cur with
        | none => rw [hc] at hg; simp at hg
        | some f =>
          rw [hc] at hg
          simp only at hg
          injection hg with hg
          subst hg
          have := h.cur f hc
          split
          · exact ⟨this.full, this.id, this.type⟩
          · exact this
      · split
        · exact ⟨h.done, h.cur⟩
        · split <;> exact ⟨h.done, h.cur⟩
  | chars t =>
    unfold parseStep
    simp only
    split
    · exact ⟨h.done, h.cur⟩
    · split
      · refine ⟨h.done, ?_⟩
        intro g hg
        simp only at hg
        cases hc : st.cur with
        | none => rw [hc] at hg; simp at hg
        | some f =>
          rw [hc] at hg
          simp only [Option.map_some] at hg
          injection hg with hg
          subst hg
          have := h.cur f hc
          split
          · exact ⟨rfl, fun _ => rfl, this.type⟩
          · exact this
      · split <;> exact ⟨h.done, h.cur⟩

theorem fold_inv (toks : List Tok) (st : PState) (h : FInv st) : FInv (toks.foldl parseStep st) := by
  induction toks generalizing st with
  | nil => exact h
  | cons t toks ih => exact ih _ (step_inv st t h)

theorem fields_whole (xml : Bytes) (toks : List Tok) (f : XField) (hf : f ∈ parseFields xml toks) : Whole f := by
  unfold parseFields at hf
  split at hf
  · exact (fold_inv toks {} ⟨by simp, by simp⟩).done f hf
  · simp at hf

/-! ### Flat templates -/

theorem attr_snoc (as : List (Bytes × Bytes)) (a : Bytes × Bytes) (k : Bytes) :
    attr (as ++ [a]) k = if a.1 = k then some a.2 else attr as k := by
  unfold attr
  rw [List.reverse_append]
  simp only [List.reverse_cons, List.reverse_nil, List.nil_append, List.singleton_append, List.find?_cons]
  by_cases h : a.1 = k <;> simp [h]

theorem attr_nil (k : Bytes) : attr [] k = none := rfl

/-- What the loop over the attributes leaves. -/
structure AttrsRead (as : List (Bytes × Bytes)) (f0 : XField) (n0 r0 : Bytes) (p : XField × Bytes × Bytes) : Prop where
  name : p.1.name = (attr as b!"name").getD f0.name
  fullName : p.1.fullName = (attr as b!"name").getD f0.fullName
  curName : p.2.1 = (attr as b!"name").getD n0
  req : p.2.2 = (attr as b!"required").getD r0
  type : p.1.type = match attr as b!"type" with | some t => mapType t | none => f0.type
  readOnly : p.1.readOnly = true ↔ f0.readOnly = true ∨ (b!"access", b!"readOnly") ∈ as
  layout : ∀ k, k ∈ [b!"h", b!"w", b!"x", b!"y"] → p.1.layout.get k = (attr as k).or (f0.layout.get k)
  dflt : p.1.dflt = f0.dflt
  label : p.1.label = f0.label

theorem attrs_read (f0 : XField) (n0 r0 : Bytes) (as : List (Bytes × Bytes)) :
    AttrsRead as f0 n0 r0 (as.foldl attrStep (f0, n0, r0)) := by
  induction as using snoc_induction with
  | nil => exact ⟨rfl, rfl, rfl, rfl, rfl, by simp, fun k _ => by simp [attr_nil], rfl, rfl⟩
  | snoc as a ih =>
    rw [List.foldl_append, List.foldl_cons, List.foldl_nil]
    generalize as.foldl attrStep (f0, n0, r0) = p at ih
    obtain ⟨f, n, r⟩ := p
    obtain ⟨i1, i2, i3, i4, i5, i6, i7, i8, i9⟩ := ih
    simp only at i1 i2 i3 i4 i5 i6 i7 i8 i9
    obtain ⟨k, v⟩ := a
    have mem : ∀ x : Bytes × Bytes, x ∈ as ++ [(k, v)] ↔ x ∈ as ∨ x = (k, v) := by simp
    have nacc : ∀ l : Bytes, l ≠ b!"access" → ((b!"access", b!"readOnly") ∈ as ++ [(l, v)] ↔ (b!"access", b!"readOnly") ∈ as) := by
      intro l hl
      simp only [List.mem_append, List.mem_singleton, Prod.mk.injEq]
      constructor
      · rintro (h | h)
        · exact h
        · exact absurd h.1.symm hl
      · exact .inl
    unfold attrStep
    simp only
    by_cases h1 : k = b!"name"
    · subst h1
      rw [if_pos rfl]
      refine ⟨?_, ?_, ?_, ?_, ?_, ?_, ?_, i8, i9⟩
      · simp only [attr_snoc]; rfl
      · simp only [attr_snoc]; rfl
      · simp only [attr_snoc]; rfl
      · simp only [attr_snoc]; rw [if_neg (by decide)]; exact i4
      · simp only [attr_snoc]; rw [if_neg (by decide)]; exact i5
      · rw [nacc _ (by decide)]; exact i6
      · intro j hj
        simp only [attr_snoc]
        rw [if_neg (by intro h; subst h; revert hj; decide)]
        exact i7 j hj
    rw [if_neg h1]
    by_cases h2 : k = b!"type"
    · subst h2
      rw [if_pos rfl]
      refine ⟨?_, ?_, ?_, ?_, ?_, ?_, ?_, i8, i9⟩
      · simp only [attr_snoc]; rw [if_neg (by decide)]; exact i1
      · simp only [attr_snoc]; rw [if_neg (by decide)]; exact i2
      · simp only [attr_snoc]; rw [if_neg (by decide)]; exact i3
      · simp only [attr_snoc]; rw [if_neg (by decide)]; exact i4
      · simp only [attr_snoc]; rfl
      · rw [nacc _ (by decide)]; exact i6
      · intro j hj
        simp only [attr_snoc]
        rw [if_neg (by intro h; subst h; revert hj; decide)]
        exact i7 j hj
    rw [if_neg h2]
    by_cases h3 : k = b!"required"
    · subst h3
      rw [if_pos rfl]
      refine ⟨?_, ?_, ?_, ?_, ?_, ?_, ?_, i8, i9⟩
      · simp only [attr_snoc]; rw [if_neg (by decide)]; exact i1
      · simp only [attr_snoc]; rw [if_neg (by decide)]; exact i2
      · simp only [attr_snoc]; rw [if_neg (by decide)]; exact i3
      · simp only [attr_snoc]; rfl
      · simp only [attr_snoc]; rw [if_neg (by decide)]; exact i5
      · rw [nacc _ (by decide)]; exact i6
      · intro j hj
        simp only [attr_snoc]
        rw [if_neg (by intro h; subst h; revert hj; decide)]
        exact i7 j hj
    rw [if_neg h3]
    by_cases h4 : k = b!"access"
    · subst h4
      rw [if_pos rfl]
      have e : ∀ j, j ≠ b!"access" → attr (as ++ [(b!"access", v)]) j = attr as j := fun j hj => by rw [attr_snoc, if_neg (fun h => hj h.symm)]
      have g : ∀ q : XField, q.name = f.name → q.fullName = f.fullName → q.type = f.type → q.layout = f.layout → q.dflt = f.dflt → q.label = f.label →
          (q.readOnly = true ↔ f.readOnly = true ∨ v = b!"readOnly") → AttrsRead (as ++ [(b!"access", v)]) f0 n0 r0 (q, n, r) := by
        intro q q1 q2 q3 q4 q5 q6 q7
        refine ⟨?_, ?_, ?_, ?_, ?_, ?_, ?_, q5.trans i8, q6.trans i9⟩
        · simp only; rw [e _ (by decide), q1]; exact i1
        · simp only; rw [e _ (by decide), q2]; exact i2
        · simp only; rw [e _ (by decide)]; exact i3
        · simp only; rw [e _ (by decide)]; exact i4
        · simp only; rw [e _ (by decide), q3]; exact i5
        · simp only
          rw [q7, i6, mem]
          constructor
          · rintro ((h | h) | h)
            · exact .inl h
            · exact .inr (.inl h)
            · exact .inr (.inr (by rw [h]))
          · rintro (h | h | h)
            · exact .inl (.inl h)
            · exact .inl (.inr h)
            · injection h with _ h; exact .inr h.symm
        · intro j hj
          simp only
          rw [e _ (by intro h; subst h; revert hj; decide), q4]
          exact i7 j hj
      by_cases hv : v = b!"readOnly"
      · rw [if_pos hv]
        exact g _ rfl rfl rfl rfl rfl rfl (by simp [hv])
      · rw [if_neg hv]
        exact g _ rfl rfl rfl rfl rfl rfl (by simp [hv])
    rw [if_neg h4]
    have e : ∀ j, j ≠ k → attr (as ++ [(k, v)]) j = attr as j := fun j hj => by rw [attr_snoc, if_neg (fun h => hj h.symm)]
    by_cases h5 : k = b!"h" ∨ k = b!"w" ∨ k = b!"x" ∨ k = b!"y"
    · rw [if_pos h5]
      refine ⟨?_, ?_, ?_, ?_, ?_, ?_, ?_, i8, i9⟩
      · simp only; rw [e _ (fun h => h1 h.symm)]; exact i1
      · simp only; rw [e _ (fun h => h1 h.symm)]; exact i2
      · simp only; rw [e _ (fun h => h1 h.symm)]; exact i3
      · simp only; rw [e _ (fun h => h3 h.symm)]; exact i4
      · simp only; rw [e _ (fun h => h2 h.symm)]; exact i5
      · rw [nacc _ h4]; exact i6
      · intro j hj
        simp only
        rw [Map.get_set, attr_snoc]
        by_cases hk : j = k
        · subst hk; simp
        · rw [if_neg hk, if_neg (fun h => hk h.symm)]; exact i7 j hj
    · rw [if_neg h5]
      refine ⟨?_, ?_, ?_, ?_, ?_, ?_, ?_, i8, i9⟩
      · simp only; rw [e _ (fun h => h1 h.symm)]; exact i1
      · simp only; rw [e _ (fun h => h1 h.symm)]; exact i2
      · simp only; rw [e _ (fun h => h1 h.symm)]; exact i3
      · simp only; rw [e _ (fun h => h3 h.symm)]; exact i4
      · simp only; rw [e _ (fun h => h2 h.symm)]; exact i5
      · rw [nacc _ h4]; exact i6
      · intro j hj
        simp only
        rw [e _ (by
          intro h; subst h
          apply h5
          simp only [List.mem_cons, List.not_mem_nil, or_false] at hj
          exact hj)]
        exact i7 j hj

/-- Between two fields. -/
structure Idle (st : PState) : Prop where
  cur : st.cur = none
  name : st.name = []
  value : st.value = []
  required : st.required = []
  label : st.label = []
  inField : st.inField = false
  inValue : st.inValue = false
  inName : st.inName = false
  inLabel : st.inLabel = false

theorem neutral_quiet (st : PState) (t : Tok) (ht : Neutral t) (h1 : st.inValue = false) (h2 : st.inName = false) (h3 : st.inLabel = false) :
    parseStep st t = st := by
  cases t with
  | start n as =>
    obtain ⟨a, b, c, d⟩ := ht
    unfold parseStep
    simp [a, b, c, d]
  | close n =>
    obtain ⟨a, b, c, d⟩ := ht
    unfold parseStep
    simp [a, b, c, d]
  | chars t => unfold parseStep; simp [h1, h2, h3]

theorem neutral_all (ts : List Tok) (st : PState) (ht : ∀ t ∈ ts, Neutral t) (h1 : st.inValue = false) (h2 : st.inName = false)
    (h3 : st.inLabel = false) : ts.foldl parseStep st = st := by
  induction ts with
  | nil => rfl
  | cons t ts ih =>
    rw [List.foldl_cons, neutral_quiet st t (ht t (List.mem_cons_self ..)) h1 h2 h3]
    exact ih fun t h => ht t (List.mem_cons_of_mem _ h)

theorem neutral_value (ts : List Tok) (st : PState) (ht : ∀ t ∈ ts, Neutral t) (h1 : st.inValue = true) (h2 : st.inField = true) :
    ts.foldl parseStep st = { st with value := st.value ++ textOf ts } := by
  induction ts generalizing st with
  | nil => simp [textOf]
  | cons t ts ih =>
    have hn := ht t (List.mem_cons_self ..)
    have hr : ∀ t ∈ ts, Neutral t := fun t h => ht t (List.mem_cons_of_mem _ h)
    rw [List.foldl_cons]
    cases t with
    | start n as =>
      obtain ⟨a, b, c, d⟩ := hn
      have : parseStep st (.start n as) = st := by unfold parseStep; simp [a, b, c, d]
      rw [this, ih st hr h1 h2]; rfl
    | close n =>
      obtain ⟨a, b, c, d⟩ := hn
      have : parseStep st (.close n) = st := by unfold parseStep; simp [a, b, c, d]
      rw [this, ih st hr h1 h2]; rfl
    | chars s =>
      have : parseStep st (.chars s) = { st with value := st.value ++ s } := by unfold parseStep; simp [h1, h2]
      rw [this, ih _ hr (by exact h1) (by exact h2)]
      simp [textOf]

theorem trim_id_of (f : XField) (st : PState) : (finish st f).dflt = if st.value ≠ [] then some (trimSpace st.value) else f.dflt := by
  unfold finish
  simp only
  repeat' split
  all_goals simp_all

theorem finish_named (st : PState) (f : XField) (hn : f.name ≠ []) (ht : f.type ≠ []) (hl : st.label = []) :
    (finish st f).name = f.name ∧ (finish st f).fullName = f.fullName ∧ (finish st f).type = f.type ∧ (finish st f).readOnly = f.readOnly ∧
    (finish st f).layout = f.layout ∧ (finish st f).label = f.label ∧
    ((finish st f).required = true ↔ Required st.required) := by
  unfold finish
  simp only [hn, ht, hl, if_false, ne_eq, not_true_eq_false]
  refine ⟨?_, ?_, ?_, ?_, ?_, ?_, ?_⟩
  all_goals (try (split <;> rfl))
  simp [Required, or_assoc]

/-- A field element between two idle states. -/
theorem field_read (st : PState) (hs : Idle st) (f : FieldEl) (hb : ∀ t ∈ f.before, Neutral t) (ha : ∀ t ∈ f.after, Neutral t)
    (hv : ∀ v, f.value = some v → ∀ t ∈ v, Neutral t) (hn : ∃ n, attr f.attrs b!"name" = some n ∧ n ≠ []) :
    ∃ x st', f.toks.foldl parseStep st = st' ∧ Idle st' ∧ st'.fields = st.fields ++ [x] ∧ Describes f x := by
  obtain ⟨n, hn, hne⟩ := hn
  have hA := attrs_read { id := fieldN st.index } st.name st.required f.attrs
  have hP := attrs_partial f.attrs ({ id := fieldN st.index }, st.name, st.required)
    ⟨rfl, fun h0 => absurd rfl h0, by show b!"text" ∈ Types; decide⟩
  unfold FieldEl.toks
  simp only [List.foldl_append, List.foldl_cons, List.foldl_nil]
  have e1 : parseStep st (.start b!"field" f.attrs) =
      { st with inField := true, cur := some (f.attrs.foldl attrStep ({ id := fieldN st.index }, st.name, st.required)).1,
                name := (f.attrs.foldl attrStep ({ id := fieldN st.index }, st.name, st.required)).2.1,
                required := (f.attrs.foldl attrStep ({ id := fieldN st.index }, st.name, st.required)).2.2 } := by
    unfold parseStep; rfl
  rw [e1]
  generalize f.attrs.foldl attrStep ({ id := fieldN st.index }, st.name, st.required) = p at hA hP
  obtain ⟨g, cn, cr⟩ := p
  obtain ⟨a1, a2, a3, a4, a5, a6, a7, a8, a9⟩ := hA
  simp only at a1 a2 a3 a4 a5 a6 a7 a8 a9 hP ⊢
  rw [neutral_all f.before _ hb (by exact hs.inValue) (by exact hs.inName) (by exact hs.inLabel)]
  have gname : g.name = n := by rw [a1, hn]; rfl
  have gty : g.type ≠ [] := by
    have := hP.type
    intro h0; rw [h0] at this; revert this; decide
  -- the state before the end of the field
  have key : ∃ s1 : PState, s1.fields = st.fields ∧ s1.index = st.index ∧ s1.inName = false ∧ s1.inLabel = false ∧ s1.inValue = false ∧
      s1.label = [] ∧ s1.required = cr ∧
      (∃ d, s1.cur = some { g with dflt := d } ∧
        (if s1.value ≠ [] then some (trimSpace s1.value) else d) = (match f.value with | some v => if textOf v = [] then none else some (trimSpace (textOf v)) | none => none)) ∧
      f.valueToks.foldl parseStep
        { st with inField := true, cur := some g, name := cn, required := cr } = s1 := by
    unfold FieldEl.valueToks
    cases hfv : f.value with
    | none =>
      refine ⟨{ st with inField := true, cur := some g, name := cn, required := cr }, rfl, rfl, hs.inName, hs.inLabel, hs.inValue, hs.label, rfl, ⟨g.dflt, ?_, ?_⟩, rfl⟩
      · rfl
      · simp only [hs.value, a8]; rfl
    | some v =>
      simp only [List.foldl_append, List.foldl_cons, List.foldl_nil]
      have e2 : parseStep { st with inField := true, cur := some g, name := cn, required := cr } (.start b!"value" []) =
          { st with inField := true, cur := some g, name := cn, required := cr, inValue := true, value := [] } := by
        unfold parseStep; rfl
      rw [e2, neutral_value v _ (hv v hfv) rfl rfl]
      have e3 : ∀ w : Bytes, parseStep { st with inField := true, cur := some g, name := cn, required := cr, inValue := true, value := w } (.close b!"value") =
          { st with inField := true, cur := some (if w ≠ [] then { g with dflt := some (trimSpace w) } else g), name := cn, required := cr, inValue := false, value := w } := by
        intro w; unfold parseStep; rfl
      simp only [List.nil_append]
      rw [e3]
      refine ⟨{ st with inField := true, cur := some (if textOf v ≠ [] then { g with dflt := some (trimSpace (textOf v)) } else g), name := cn, required := cr, inValue := false, value := textOf v }, rfl, rfl, hs.inName, hs.inLabel, rfl, hs.label, rfl, ⟨if textOf v = [] then none else some (trimSpace (textOf v)), ?_, ?_⟩, rfl⟩
      · by_cases h0 : textOf v = []
        · simp only [h0, ne_eq, not_true_eq_false, if_false, if_true]
          rw [← a8]
        · simp only [h0, ne_eq, not_false_eq_true, if_true, if_false]
      · by_cases h0 : textOf v = [] <;> simp [h0]
  obtain ⟨s1, k1, k2, k3, k4, k5, k6, k7, ⟨d, k8, k9⟩, k10⟩ := key
  rw [k10, neutral_all f.after s1 ha k5 k3 k4]
  refine ⟨finish s1 { g with dflt := d }, _, rfl, ?_, ?_, ?_⟩
  · unfold parseStep
    simp only [if_true]
    exact ⟨rfl, rfl, rfl, rfl, rfl, rfl, k5, k3, k4⟩
  · unfold parseStep
    simp only [if_true, k8, k1]
  · obtain ⟨f1, f2, f3, f4, f5, f6, f7⟩ := finish_named s1 { g with dflt := d } (by simp only; rw [gname]; exact hne) gty k6
    refine ⟨?_, ?_, ?_, ?_, ?_, ?_, ?_, ?_⟩
    · rw [f1]; simp only; rw [gname]; exact hn
    · rw [f2, f1]; exact hP.full
    · rw [f3]; exact a5
    · rw [f7, k7, a4, hs.required]
      cases hr : attr f.attrs b!"required" with
      | none =>
        simp only [Option.getD_none]
        constructor
        · intro h; exact absurd h (by unfold Required; decide)
        · rintro ⟨v, h, _⟩; simp at h
      | some v =>
        simp only [Option.getD_some]
        exact ⟨fun h => ⟨v, rfl, h⟩, fun ⟨w, h, hw⟩ => by injection h with h; subst h; exact hw⟩
    · rw [f4, a6]; simp
    · rw [trim_id_of]; exact k9
    · intro k hk
      rw [f5]
      have := a7 k hk
      simp only
      rw [this]
      simp [Map.get]
    · rw [f6]; exact a9

theorem template_read : ∀ (fs : List (FieldEl × List Tok)) (st : PState), Idle st →
    (∀ e ∈ fs, (∀ t ∈ e.1.before, Neutral t) ∧ (∀ t ∈ e.1.after, Neutral t) ∧ (∀ v, e.1.value = some v → ∀ t ∈ v, Neutral t) ∧
      (∃ n, attr e.1.attrs b!"name" = some n ∧ n ≠ []) ∧ ∀ t ∈ e.2, Neutral t) →
    ∃ xs, ((template fs).foldl parseStep st).fields = st.fields ++ xs ∧ xs.length = fs.length ∧
      ∀ (i : Nat) (e : FieldEl × List Tok) (x : XField), fs[i]? = some e → xs[i]? = some x → Describes e.1 x := by
  intro fs
  induction fs with
  | nil => intro st _ _; exact ⟨[], by simp [template], rfl, by simp⟩
  | cons e fs ih =>
    intro st hs hf
    obtain ⟨f, gap⟩ := e
    obtain ⟨h1, h2, h3, h4, h5⟩ := hf _ (List.mem_cons_self ..)
    obtain ⟨x, st1, k1, k2, k3, k4⟩ := field_read st hs f h1 h2 h3 h4
    unfold template
    rw [List.foldl_append, List.foldl_append, k1, neutral_all gap st1 h5 k2.inValue k2.inName k2.inLabel]
    obtain ⟨xs, j1, j2, j3⟩ := ih st1 k2 fun e he => hf e (List.mem_cons_of_mem _ he)
    refine ⟨x :: xs, by rw [j1, k3]; simp, by simp [j2], ?_⟩
    intro i e y he hy
    cases i with
    | zero => simp at he hy; subst he; subst hy; exact k4
    | succ i => simp at he hy; exact j3 i e y he hy

end Pdfer.XFA
