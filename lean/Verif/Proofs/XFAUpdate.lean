import Verif.Spec.XFA
import Verif.Proofs.Delete
import Verif.Proofs.CryptoDict

/-! Proofs about the update of XFA values. -/

namespace Pdfer.XFA

open Pdfer.Go Pdfer.Forms Pdfer.Spec Pdfer.Spec.XFA Pdfer.Crypto

theorem idx_skip {c : UInt8} {k a t : Bytes} (hc : c ∉ k) (ha : NoOcc (c :: k) a) (ht : ∀ d, t.head? = some d → d = c) :
    index (c :: k) (a ++ t) = (index (c :: k) t).map (· + a.length) := by
  induction a with
  | nil => simp
  | cons x a ih =>
    have h0 : ¬ (c :: k).isPrefixOf (x :: (a ++ t)) = true := by
      rw [List.isPrefixOf_iff_prefix]
      have := Manipulate.no_straddle ha (fun d hd hm => hc (by rw [ht d hd] at hm; exact hm)) 0 (by simp)
      simpa using this
    have ha' : NoOcc (c :: k) a := by
      have := noOcc_drop ha 1
      simpa using this
    rw [List.cons_append, index, if_neg h0, ih ha']
    cases index (c :: k) t <;> simp
    omega

theorem avoid_mono {key a x : Bytes} (h : Avoid key a) : Avoid (key ++ x) a := by
  intro i hi s hp
  exact h i hi s ((List.prefix_append _ _).trans hp)

theorem noOcc_mono {key a x : Bytes} (h : NoOcc key a) : NoOcc (key ++ x) a := by
  intro j hp
  exact h j ((List.prefix_append _ _).trans hp)

theorem idx_here (p t : Bytes) (h : p ≠ []) : index p (p ++ t) = some 0 := by
  cases p with
  | nil => exact absurd rfl h
  | cons c p =>
    rw [List.cons_append, index, if_pos]
    rw [List.isPrefixOf_iff_prefix]
    exact List.prefix_append (c :: p) t

/-- The text the update looks for. -/
def pat (n : Bytes) : Bytes := b!"<field name=\"" ++ n ++ b!"\""

theorem pat_cons (n : Bytes) : pat n = 60 :: (b!"field name=\"" ++ n ++ b!"\"") := rfl

theorem pat_tail {n : Bytes} (h : (60 : UInt8) ∉ n) : (60 : UInt8) ∉ b!"field name=\"" ++ n ++ b!"\"" := by
  simp [h]

theorem avoid_pat {a n : Bytes} (h : clash b!"<field name=\"" a = true) : Avoid (pat n) a := by
  have : Avoid (b!"<field name=\"" ++ (n ++ b!"\"")) a := avoid_mono (avoid_clash h)
  simpa [pat] using this

theorem noOcc_pat {a n : Bytes} (h : Absent b!"<field name=\"" a) : NoOcc (pat n) a := by
  have : NoOcc (b!"<field name=\"" ++ (n ++ b!"\"")) a := noOcc_mono ((Incremental.absent_iff (by decide)).1 h)
  simpa [pat] using this

/-- What follows a text in which the pattern is absent. -/
def Marked (t : Bytes) : Prop := ∀ d, t.head? = some d → d = 60

theorem skip_pat {a t n : Bytes} (hn : (60 : UInt8) ∉ n) (h : Absent b!"<field name=\"" a) (ht : Marked t) :
    index (pat n) (a ++ t) = (index (pat n) t).map (· + a.length) := by
  rw [pat_cons]
  exact idx_skip (pat_tail hn) (noOcc_pat h) ht

theorem skip_free {a t n : Bytes} (h : (60 : UInt8) ∉ a) : index (pat n) (a ++ t) = (index (pat n) t).map (· + a.length) :=
  index_avoid (avoid_head h)

theorem marked_lit (k t : Bytes) : Marked (60 :: k ++ t) := by
  intro d hd; simp at hd; exact hd.symm

theorem prefix_quote {n m t u : Bytes} (hn : (34 : UInt8) ∉ n) (hm : (34 : UInt8) ∉ m) (h : n ++ 34 :: t = m ++ 34 :: u) : n = m := by
  induction n generalizing m with
  | nil =>
    cases m with
    | nil => rfl
    | cons x m => simp at h; exact absurd (by simp [h.1]) hm
  | cons y n ih =>
    cases m with
    | nil => simp at h; exact absurd (by simp [h.1]) hn
    | cons x m =>
      simp at h
      rw [h.1, ih (by simp at hn; exact hn.2) (by simp at hm; exact hm.2) h.2]

/-- A field element of another name is passed over. -/
theorem skip_field {f : XmlField} {n t : Bytes} (hf : FlatField f) (hn : (34 : UInt8) ∉ n ∧ (60 : UInt8) ∉ n) (hne : f.name ≠ n) :
    index (pat n) (f.text ++ t) = (index (pat n) t).map (· + f.text.length) := by
  unfold XmlField.text
  have e : b!"<field name=\"" ++ f.name ++ b!"\"" ++ f.head ++ f.valueText ++ f.tail ++ b!"</field>" ++ t =
      60 :: (b!"field name=\"" ++ f.name ++ b!"\"" ++ (f.head ++ (f.valueText ++ (f.tail ++ (b!"</field>" ++ t))))) := by simp
  rw [e, index, if_neg]
  · have m1 : Marked (b!"</field>" ++ t) := marked_lit _ _
    have m2 : Marked (f.valueText ++ (f.tail ++ (b!"</field>" ++ t))) := by
      unfold XmlField.valueText
      cases hv : f.value with
      | some v => intro d hd; simp at hd; exact hd.symm
      | none => rw [hf.none hv]; exact m1
    rw [skip_free (a := b!"field name=\"" ++ f.name ++ b!"\"") (by simp [hf.name.2]), skip_pat hn.2 hf.head.1 m2]
    have ev : index (pat n) (f.valueText ++ (f.tail ++ (b!"</field>" ++ t))) =
        (index (pat n) (f.tail ++ (b!"</field>" ++ t))).map (· + f.valueText.length) := by
      unfold XmlField.valueText
      cases hv : f.value with
      | some v =>
        simp only [List.append_assoc]
        rw [index_avoid (avoid_pat (a := b!"<value>") (by decide)), skip_free (hf.value v hv), index_avoid (avoid_pat (a := b!"</value>") (by decide))]
        cases index (pat n) (f.tail ++ (b!"</field>" ++ t)) <;> simp
        omega
      | none => simp
    rw [ev, skip_pat hn.2 hf.tail.1 m1, index_avoid (avoid_pat (a := b!"</field>") (by decide))]
    cases index (pat n) t <;> simp
    omega
  · rw [List.isPrefixOf_iff_prefix]
    rintro ⟨u, hu⟩
    apply hne
    have : f.name ++ 34 :: (f.head ++ (f.valueText ++ (f.tail ++ (b!"</field>" ++ t)))) = n ++ 34 :: u := by
      simp [pat] at hu
      simp
      exact hu.symm
    exact prefix_quote hf.name.1 hn.1 this

theorem skip_fields {n : Bytes} (hn : (34 : UInt8) ∉ n ∧ (60 : UInt8) ∉ n) {t : Bytes} (ht : Marked t) : ∀ doc : List (XmlField × Bytes),
    (∀ e ∈ doc, FlatField e.1 ∧ Absent b!"<field name=\"" e.2) → (∀ e ∈ doc, e.1.name ≠ n) →
    index (pat n) (fieldsText doc ++ t) = (index (pat n) t).map (· + (fieldsText doc).length) ∧ Marked (fieldsText doc ++ t) := by
  intro doc
  induction doc with
  | nil => intro _ _; exact ⟨by simp [fieldsText], ht⟩
  | cons e doc ih =>
    intro h1 h2
    obtain ⟨f, g⟩ := e
    obtain ⟨i1, i2⟩ := ih (fun e he => h1 e (List.mem_cons_of_mem _ he)) (fun e he => h2 e (List.mem_cons_of_mem _ he))
    obtain ⟨a, b⟩ := h1 _ (List.mem_cons_self ..)
    unfold fieldsText
    simp only [List.append_assoc]
    refine ⟨?_, ?_⟩
    · rw [skip_field a hn (h2 _ (List.mem_cons_self ..)), skip_pat hn.2 b i2, i1]
      cases index (pat n) t <;> simp
      omega
    · unfold XmlField.text
      intro d hd; simp at hd; exact hd.symm

theorem take_app {a b : Bytes} {n : Nat} (h : n = a.length) : (a ++ b).take n = a := by subst h; simp
theorem drop_app {a b : Bytes} {n : Nat} (h : n = a.length) : (a ++ b).drop n = b := by subst h; simp

/-- One update. -/
theorem set_here (pre t : Bytes) (f : XmlField) (v : Bytes) (hf : FlatField f)
    (hi : index (pat f.name) (pre ++ (f.text ++ t)) = some pre.length) :
    setFieldValue (pre ++ (f.text ++ t)) f.name v = pre ++ ((f.withValue v).text ++ t) := by
  have hi' : index (b!"<field name=\"" ++ f.name ++ b!"\"") (pre ++ (f.text ++ t)) = some pre.length := hi
  unfold setFieldValue
  rw [hi']
  simp only
  rw [drop_app rfl]
  have A : ∀ {a : Bytes}, (60 : UInt8) ∉ a → ∀ k s, index (60 :: k) (a ++ s) = (index (60 :: k) s).map (· + a.length) :=
    fun h k s => index_avoid (avoid_head h)
  -- the end of the field
  have hend : ∀ s : Bytes, index b!"</field>" (f.text ++ s) = some (b!"<field name=\"" ++ f.name ++ b!"\"" ++ f.head ++ f.valueText ++ f.tail).length := by
    intro s
    unfold XmlField.text
    have e : b!"<field name=\"" ++ f.name ++ b!"\"" ++ f.head ++ f.valueText ++ f.tail ++ b!"</field>" ++ s =
      b!"<field name=\"" ++ (f.name ++ (b!"\"" ++ (f.head ++ (f.valueText ++ (f.tail ++ (b!"</field>" ++ s)))))) := by simp
    rw [e, index_avoid (avoid_clash (key := b!"</field>") (a := b!"<field name=\"") (by decide)), A hf.name.2, A (a := b!"\"") (by decide)]
    have m1 : ∀ d, (b!"</field>" ++ s).head? = some d → d = 60 := marked_lit _ _
    have m2 : ∀ d, (f.valueText ++ (f.tail ++ (b!"</field>" ++ s))).head? = some d → d = 60 := by
      unfold XmlField.valueText
      cases hv : f.value with
      | some v => intro d hd; simp at hd; exact hd.symm
      | none => rw [hf.none hv]; exact m1
    rw [idx_skip (by decide) ((Incremental.absent_iff (by decide)).1 hf.head.2.1) m2]
    have ev : index b!"</field>" (f.valueText ++ (f.tail ++ (b!"</field>" ++ s))) =
        (index b!"</field>" (f.tail ++ (b!"</field>" ++ s))).map (· + f.valueText.length) := by
      unfold XmlField.valueText
      cases hv : f.value with
      | some w =>
        simp only [List.append_assoc]
        rw [index_avoid (avoid_clash (key := b!"</field>") (a := b!"<value>") (by decide)), A (hf.value w hv), index_avoid (avoid_clash (key := b!"</field>") (a := b!"</value>") (by decide))]
        cases index b!"</field>" (f.tail ++ (b!"</field>" ++ s)) <;> simp
        omega
      | none => simp
    rw [ev, idx_skip (by decide) ((Incremental.absent_iff (by decide)).1 hf.tail.2) m1, idx_here _ _ (by decide)]
    simp
    omega
  rw [hend]
  simp only
  have hsec : (f.text ++ t).take (b!"<field name=\"" ++ f.name ++ b!"\"" ++ f.head ++ f.valueText ++ f.tail).length =
      b!"<field name=\"" ++ f.name ++ b!"\"" ++ f.head ++ f.valueText ++ f.tail := by
    unfold XmlField.text
    rw [List.append_assoc _ b!"</field>" t]
    exact take_app rfl
  rw [hsec]
  cases hv : f.value with
  | none =>
    have ht0 := hf.none hv
    have h1 : index b!"<value>" (b!"<field name=\"" ++ f.name ++ b!"\"" ++ f.head ++ f.valueText ++ f.tail) = none := by
      unfold XmlField.valueText
      rw [hv, ht0]
      have e : b!"<field name=\"" ++ f.name ++ b!"\"" ++ f.head ++ [] ++ [] = b!"<field name=\"" ++ (f.name ++ (b!"\"" ++ f.head)) := by simp
      rw [e, index_avoid (avoid_clash (key := b!"<value>") (a := b!"<field name=\"") (by decide)), A hf.name.2, A (a := b!"\"") (by decide)]
      rw [noOcc_iff_index.1 ((Incremental.absent_iff (by decide)).1 hf.head.2.2.1)]
      rfl
    rw [h1]
    have : ∀ o : Option Nat, (match (none : Option Nat), o with
      | some a, some b => (pre ++ (f.text ++ t)).take (pre.length + a + 7) ++ v ++ (pre ++ (f.text ++ t)).drop (pre.length + b)
      | _, _ => (pre ++ (f.text ++ t)).take (pre.length + (b!"<field name=\"" ++ f.name ++ b!"\"" ++ f.head ++ f.valueText ++ f.tail).length) ++ b!"<value>" ++ v ++ b!"</value>" ++
          (pre ++ (f.text ++ t)).drop (pre.length + (b!"<field name=\"" ++ f.name ++ b!"\"" ++ f.head ++ f.valueText ++ f.tail).length)) =
        (pre ++ (f.text ++ t)).take (pre.length + (b!"<field name=\"" ++ f.name ++ b!"\"" ++ f.head ++ f.valueText ++ f.tail).length) ++ b!"<value>" ++ v ++ b!"</value>" ++
          (pre ++ (f.text ++ t)).drop (pre.length + (b!"<field name=\"" ++ f.name ++ b!"\"" ++ f.head ++ f.valueText ++ f.tail).length) := fun o => rfl
    refine Eq.trans (this (index b!"</value>" (b!"<field name=\"" ++ f.name ++ b!"\"" ++ f.head ++ f.valueText ++ f.tail))) ?_
    have e2 : pre ++ (f.text ++ t) = (pre ++ (b!"<field name=\"" ++ f.name ++ b!"\"" ++ f.head ++ f.valueText ++ f.tail)) ++ (b!"</field>" ++ t) := by
      unfold XmlField.text; simp
    rw [e2, take_app (by simp), drop_app (by simp)]
    unfold XmlField.withValue XmlField.text XmlField.valueText
    simp [hv, ht0]
  | some w =>
    have hval : f.valueText = b!"<value>" ++ w ++ b!"</value>" := by unfold XmlField.valueText; rw [hv]
    have h1 : index b!"<value>" (b!"<field name=\"" ++ f.name ++ b!"\"" ++ f.head ++ f.valueText ++ f.tail) =
        some (b!"<field name=\"" ++ f.name ++ b!"\"" ++ f.head).length := by
      rw [hval]
      have e : b!"<field name=\"" ++ f.name ++ b!"\"" ++ f.head ++ (b!"<value>" ++ w ++ b!"</value>") ++ f.tail =
        b!"<field name=\"" ++ (f.name ++ (b!"\"" ++ (f.head ++ (b!"<value>" ++ (w ++ b!"</value>" ++ f.tail))))) := by simp
      rw [e, index_avoid (avoid_clash (key := b!"<value>") (a := b!"<field name=\"") (by decide)), A hf.name.2, A (a := b!"\"") (by decide),
        idx_skip (by decide) ((Incremental.absent_iff (by decide)).1 hf.head.2.2.1) (marked_lit _ _), idx_here _ _ (by decide)]
      simp
      omega
    have h2 : index b!"</value>" (b!"<field name=\"" ++ f.name ++ b!"\"" ++ f.head ++ f.valueText ++ f.tail) =
        some (b!"<field name=\"" ++ f.name ++ b!"\"" ++ f.head ++ b!"<value>" ++ w).length := by
      rw [hval]
      have e : b!"<field name=\"" ++ f.name ++ b!"\"" ++ f.head ++ (b!"<value>" ++ w ++ b!"</value>") ++ f.tail =
        b!"<field name=\"" ++ (f.name ++ (b!"\"" ++ (f.head ++ (b!"<value>" ++ (w ++ (b!"</value>" ++ f.tail)))))) := by simp
      rw [e, index_avoid (avoid_clash (key := b!"</value>") (a := b!"<field name=\"") (by decide)), A hf.name.2, A (a := b!"\"") (by decide),
        idx_skip (by decide) ((Incremental.absent_iff (by decide)).1 hf.head.2.2.2) (marked_lit _ _),
        index_avoid (avoid_clash (key := b!"</value>") (a := b!"<value>") (by decide)), A (hf.value w hv), idx_here _ _ (by decide)]
      simp
      omega
    rw [h1, h2]
    simp only
    have e1 : pre ++ (f.text ++ t) = (pre ++ (b!"<field name=\"" ++ f.name ++ b!"\"" ++ f.head ++ b!"<value>")) ++ (w ++ b!"</value>" ++ f.tail ++ b!"</field>" ++ t) := by
      unfold XmlField.text; rw [hval]; simp
    have e2 : pre ++ (f.text ++ t) = (pre ++ (b!"<field name=\"" ++ f.name ++ b!"\"" ++ f.head ++ b!"<value>" ++ w)) ++ (b!"</value>" ++ f.tail ++ b!"</field>" ++ t) := by
      unfold XmlField.text; rw [hval]; simp
    have t1 : (pre ++ (f.text ++ t)).take (pre.length + (b!"<field name=\"" ++ f.name ++ b!"\"" ++ f.head).length + 7) = pre ++ (b!"<field name=\"" ++ f.name ++ b!"\"" ++ f.head ++ b!"<value>") := by
      rw [e1]; exact take_app (by simp; omega)
    have t2 : (pre ++ (f.text ++ t)).drop (pre.length + (b!"<field name=\"" ++ f.name ++ b!"\"" ++ f.head ++ b!"<value>" ++ w).length) = b!"</value>" ++ f.tail ++ b!"</field>" ++ t := by
      rw [e2]; exact drop_app (by simp)
    rw [t1, t2]
    unfold XmlField.withValue XmlField.text XmlField.valueText
    simp

theorem withValue_flat {f : XmlField} {v : Bytes} (hf : FlatField f) (hv : (60 : UInt8) ∉ v) : FlatField (f.withValue v) :=
  ⟨hf.name, fun w hw => by injection hw with hw; subst hw; exact hv, hf.head, hf.tail, fun h => by simp [XmlField.withValue] at h⟩

/-- The fields of a document. -/
structure FlatDoc (pre : Bytes) (doc : List (XmlField × Bytes)) : Prop where
  pre : Absent b!"<field name=\"" pre
  fields : ∀ e ∈ doc, FlatField e.1 ∧ Absent b!"<field name=\"" e.2
  names : (doc.map fun e => e.1.name).Nodup

theorem fieldsText_append (a b : List (XmlField × Bytes)) : fieldsText (a ++ b) = fieldsText a ++ fieldsText b := by
  induction a with
  | nil => rfl
  | cons e a ih => obtain ⟨f, g⟩ := e; simp [fieldsText, ih]

/-- One update of a document. -/
def setName (n v : Bytes) (doc : List (XmlField × Bytes)) : List (XmlField × Bytes) :=
  doc.map fun e => if e.1.name = n then (e.1.withValue v, e.2) else e

theorem marked_fields (doc : List (XmlField × Bytes)) : Marked (fieldsText doc) := by
  cases doc with
  | nil => intro d hd; simp [fieldsText] at hd
  | cons e doc =>
    obtain ⟨f, g⟩ := e
    unfold fieldsText XmlField.text
    intro d hd; simp at hd; exact hd.symm

theorem set_doc {pre : Bytes} {doc : List (XmlField × Bytes)} (h : FlatDoc pre doc) {n v : Bytes} (hn : (34 : UInt8) ∉ n ∧ (60 : UInt8) ∉ n) :
    setFieldValue (pre ++ fieldsText doc) n v = pre ++ fieldsText (setName n v doc) := by
  by_cases hm : ∃ e ∈ doc, e.1.name = n
  · obtain ⟨e, he, hen⟩ := hm
    obtain ⟨d1, d2, rfl⟩ := List.append_of_mem he
    obtain ⟨f, g⟩ := e
    simp only at hen
    have hnd := h.names
    rw [List.map_append, List.map_cons] at hnd
    have hd1 : ∀ e ∈ d1, e.1.name ≠ n := by
      intro e' he' hc
      rw [List.nodup_append] at hnd
      exact hnd.2.2 _ (List.mem_map.2 ⟨e', he', rfl⟩) _ (List.mem_cons_self ..) (by rw [hc, hen])
    have hd2 : ∀ e ∈ d2, e.1.name ≠ n := by
      intro e' he' hc
      rw [List.nodup_append] at hnd
      have := (List.nodup_cons.1 hnd.2.1).1
      apply this
      rw [hen, ← hc]
      exact List.mem_map.2 ⟨e', he', rfl⟩
    have hid : ∀ d : List (XmlField × Bytes), (∀ e ∈ d, e.1.name ≠ n) → setName n v d = d := by
      intro d hd
      unfold setName
      conv => rhs; rw [← List.map_id d]
      apply List.map_congr_left
      intro e he
      rw [if_neg (hd e he)]; rfl
    have hset : setName n v (d1 ++ (f, g) :: d2) = d1 ++ (f.withValue v, g) :: d2 := by
      have : setName n v (d1 ++ (f, g) :: d2) = setName n v d1 ++ ((if f.name = n then (f.withValue v, g) else (f, g)) :: setName n v d2) := by
        unfold setName; simp
      rw [this, hid d1 hd1, hid d2 hd2, if_pos hen]
    rw [hset]
    have ef := fun (x : XmlField) => show pre ++ fieldsText (d1 ++ (x, g) :: d2) = (pre ++ fieldsText d1) ++ (x.text ++ (g ++ fieldsText d2)) by
      rw [fieldsText_append]; simp [fieldsText]
    rw [ef, ef]
    subst hen
    apply set_here _ _ _ _ (h.fields _ he).1
    have hm : Marked (f.text ++ (g ++ fieldsText d2)) := by
      unfold XmlField.text
      intro d hd; simp at hd; exact hd.symm
    obtain ⟨s1, s2⟩ := skip_fields hn hm d1 (fun e he => h.fields e (by simp [he])) hd1
    rw [List.append_assoc, skip_pat hn.2 h.pre s2, s1]
    have : index (pat f.name) (f.text ++ (g ++ fieldsText d2)) = some 0 := by
      have e : f.text ++ (g ++ fieldsText d2) = pat f.name ++ (f.head ++ f.valueText ++ f.tail ++ b!"</field>" ++ (g ++ fieldsText d2)) := by
        unfold XmlField.text pat; simp
      rw [e]
      exact idx_here _ _ (by rw [pat_cons]; simp)
    rw [this]
    simp
    omega
  · have hno : ∀ e ∈ doc, e.1.name ≠ n := fun e he hc => hm ⟨e, he, hc⟩
    have hid : setName n v doc = doc := by
      unfold setName
      conv => rhs; rw [← List.map_id doc]
      apply List.map_congr_left
      intro e he
      rw [if_neg (hno e he)]; rfl
    rw [hid]
    unfold setFieldValue
    have : index (b!"<field name=\"" ++ n ++ b!"\"") (pre ++ fieldsText doc) = none := by
      show index (pat n) _ = none
      have := skip_fields hn (t := []) (by intro d hd; simp at hd) doc h.fields hno
      rw [skip_pat hn.2 h.pre (marked_fields doc)]
      have e := this.1
      rw [List.append_nil] at e
      rw [e]
      simp [index, pat]
    rw [this]

theorem setName_flat {pre : Bytes} {doc : List (XmlField × Bytes)} (h : FlatDoc pre doc) (n : Bytes) {v : Bytes} (hv : (60 : UInt8) ∉ v) :
    FlatDoc pre (setName n v doc) := by
  refine ⟨h.pre, ?_, ?_⟩
  · intro e he
    unfold setName at he
    obtain ⟨x, hx, rfl⟩ := List.mem_map.1 he
    split
    · exact ⟨withValue_flat (h.fields x hx).1 hv, (h.fields x hx).2⟩
    · exact h.fields x hx
  · have : (setName n v doc).map (fun e => e.1.name) = doc.map fun e => e.1.name := by
      unfold setName
      rw [List.map_map]
      apply List.map_congr_left
      intro e _
      simp only [Function.comp]
      split <;> rfl
    rw [this]; exact h.names

/-- The update of one field element by all the data. -/
def pick (data : List (Bytes × Bytes)) (e : XmlField × Bytes) : XmlField × Bytes :=
  match data.find? fun d => d.1 = e.1.name with
  | some d => (e.1.withValue d.2, e.2)
  | none => e

theorem updated_pick (doc : List (XmlField × Bytes)) (data : List (Bytes × Bytes)) : updated doc data = doc.map (pick data) := rfl

theorem fold_updated : ∀ (data : List (Bytes × Bytes)) (pre : Bytes) (doc : List (XmlField × Bytes)), FlatDoc pre doc →
    (data.map (·.1)).Nodup → (∀ d ∈ data, (34 : UInt8) ∉ d.1 ∧ (60 : UInt8) ∉ d.1 ∧ (60 : UInt8) ∉ d.2) →
    data.foldl (fun x e => setFieldValue x e.1 e.2) (pre ++ fieldsText doc) = pre ++ fieldsText (updated doc data) := by
  intro data
  induction data with
  | nil =>
    intro pre doc _ _ _
    have : updated doc [] = doc := by unfold updated; simp
    rw [this]; rfl
  | cons d data ih =>
    intro pre doc h hnd hd
    obtain ⟨n, v⟩ := d
    have hd0 := hd _ (List.mem_cons_self ..)
    rw [List.foldl_cons]
    simp only
    rw [set_doc h ⟨hd0.1, hd0.2.1⟩]
    rw [List.map_cons] at hnd
    rw [ih pre _ (setName_flat h n hd0.2.2) (List.nodup_cons.1 hnd).2 (fun d hd' => hd d (List.mem_cons_of_mem _ hd'))]
    congr 2
    unfold setName
    rw [updated_pick, updated_pick, List.map_map]
    apply List.map_congr_left
    intro e _
    show pick data (if e.1.name = n then (e.1.withValue v, e.2) else e) = pick ((n, v) :: data) e
    by_cases hc : e.1.name = n
    · rw [if_pos hc]
      have hnone : data.find? (fun d => decide (d.1 = n)) = none := by
        rw [List.find?_eq_none]
        intro x hx hxn
        apply (List.nodup_cons.1 hnd).1
        have : x.1 = n := by simpa using hxn
        rw [← this]
        exact List.mem_map.2 ⟨x, hx, rfl⟩
      simp [pick, XmlField.withValue, hc, hnone]
    · rw [if_neg hc]
      have : decide (n = e.1.name) = false := by simp; exact fun h => hc h.symm
      simp only [pick, List.find?_cons, this]

end Pdfer.XFA
