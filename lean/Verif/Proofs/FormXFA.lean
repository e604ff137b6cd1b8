import Verif.Spec.FormXFA
import Verif.Proofs.Datasets
import Verif.Proofs.Rotate

/-! Reading back written templates. -/

namespace Pdfer.FormXFA

open Pdfer.Go Pdfer.XFA
open Pdfer.Datasets (DVal)
open Pdfer.Spec.FormXFA

variable {F : Type}

theorem run_append (lib : Lib F) (a b : List Tok) (st : St F) : run lib (a ++ b) st = (run lib a st).bind (run lib b) := by
  induction a generalizing st with
  | nil => rfl
  | cons t ts ih =>
    simp only [List.cons_append, run]
    cases step lib st t with
    | ok s => exact ih s
    | err => rfl
    | panic => rfl

/-! ### No panic -/

/-- A field is open exactly while there is a current field. -/
def Good (st : St F) : Prop := st.inField = st.cur.isSome

/-- The step succeeds and the invariant holds after it. -/
def Fine (r : Res (St F)) : Prop := ∃ s, r = .ok s ∧ Good s

theorem fine_ite {c : Prop} [Decidable c] {a b : Res (St F)} (ha : Fine a) (hb : Fine b) : Fine (if c then a else b) := by
  split <;> assumption

theorem fine_field {st : St F} (h : Good st) (k : FieldData F → St F) (hk : ∀ f, st.inField = true → st.cur = some f → Good (k f)) :
    Fine (if st.inField then withCur st k else .ok st) := by
  split
  · rename_i hi
    unfold Good at h
    rw [hi] at h
    obtain ⟨f, hf⟩ := Option.isSome_iff_exists.1 h.symm
    exact ⟨k f, by simp [withCur, hf], hk f hi hf⟩
  · exact ⟨st, rfl, h⟩

theorem good_ite {c : Prop} [Decidable c] {a b : St F} (ha : Good a) (hb : Good b) : Good (if c then a else b) := by
  split <;> assumption

theorem good_step (lib : Lib F) (st : St F) (h : Good st) (t : Tok) : Fine (step lib st t) := by
  have hset : ∀ (g : FieldData F), st.inField = true → Good { st with cur := some g } := fun g hi => by unfold Good; simp only [hi]; rfl
  cases t with
  | chars t =>
    refine ⟨_, rfl, ?_⟩
    exact good_ite h (good_ite h (good_ite h h))
  | start n as =>
    show Fine (onStart lib st n as)
    unfold onStart
    refine fine_ite ⟨_, rfl, h⟩ (fine_ite ⟨_, rfl, h⟩ (fine_ite ⟨_, rfl, rfl⟩ (fine_ite ⟨_, rfl, good_ite h h⟩ (fine_ite ⟨_, rfl, good_ite h h⟩
      (fine_ite ⟨_, rfl, good_ite h h⟩ (fine_ite ⟨_, rfl, good_ite h h⟩ (fine_ite ⟨_, rfl, good_ite h h⟩ (fine_ite (fine_field h _ ?_)
      (fine_ite (fine_field h _ ?_) (fine_ite (fine_field h _ ?_) (fine_ite (fine_field h _ ?_) (fine_ite (fine_field h _ ?_) ⟨_, rfl, h⟩))))))))))))
    · exact fun f hi _ => hset _ hi
    · exact fun f hi _ => good_ite h h
    · exact fun f hi _ => hset _ hi
    · exact fun f hi _ => good_ite h h
    · exact fun f hi _ => hset _ hi
  | close n =>
    show Fine (onEnd st n)
    have hmap : ∀ (c : Bool) (k : FieldData F → FieldData F), st.inField = (if c = true then st.cur.map k else st.cur).isSome := by
      intro c k; unfold Good at h; rw [h]; cases c <;> simp
    unfold onEnd
    refine fine_ite ⟨_, rfl, rfl⟩ (fine_ite ⟨_, rfl, h⟩ (fine_ite ⟨_, rfl, ?_⟩ (fine_ite ⟨_, rfl, hmap _ _⟩ (fine_ite ⟨_, rfl, hmap _ _⟩ (fine_ite ⟨_, rfl, h⟩
      (fine_ite ⟨_, rfl, hmap _ _⟩ (fine_ite (fine_field h _ ?_) (fine_ite (fine_field h _ ?_) ⟨_, rfl, h⟩))))))))
    · unfold Good at h ⊢
      simp only
      rw [h]
      cases st.cur <;> simp
    · exact fun f hi _ => hset _ hi
    · exact fun f hi _ => hset _ hi

theorem good_run (lib : Lib F) (toks : List Tok) (st : St F) (h : Good st) : ∃ s, run lib toks st = .ok s ∧ Good s := by
  induction toks generalizing st with
  | nil => exact ⟨st, rfl, h⟩
  | cons t ts ih =>
    obtain ⟨s, hs, hg⟩ := good_step lib st h t
    obtain ⟨s2, h2, hg2⟩ := ih s hg
    exact ⟨s2, by simp [run, hs, Res.bind, h2], hg2⟩

theorem good_init : Good ({} : St F) := rfl

/-! ### Indentation is ignored -/

/-- Text is ignored here. -/
def Quiet (st : St F) : Prop := st.inField = false ∨ (st.inValue = false ∧ st.inLabel = false ∧ st.inDescription = false)

theorem quiet_chars (lib : Lib F) {st : St F} (h : Quiet st) (w : Bytes) : step lib st (.chars w) = .ok st := by
  rcases h with h | ⟨h1, h2, h3⟩
  · simp [step, h]
  · simp [step, h1, h2, h3]

theorem empty_chars (lib : Lib F) (st : St F) : step lib st (.chars []) = .ok st := by
  simp [step]

/-- The tokens lead from one state to the other, and wherever the encoder may indent, text is ignored. -/
inductive Runs (lib : Lib F) : List Tok → St F → St F → Prop
  | nil (st : St F) : Runs lib [] st st
  | cons {t : Tok} {ts : List Tok} {st s s' : St F} : step lib st t = .ok s → (Indentable t → Quiet st) → Runs lib ts s s' → Runs lib (t :: ts) st s'

theorem Runs.append {lib : Lib F} {a b : List Tok} {st s s' : St F} (h1 : Runs lib a st s) (h2 : Runs lib b s s') : Runs lib (a ++ b) st s' := by
  induction h1 with
  | nil => exact h2
  | cons hs hq _ ih => exact .cons hs hq (ih h2)

theorem Runs.woven {lib : Lib F} {enc dec : List Tok} {st s : St F} (h : Runs lib enc st s) (hw : Woven enc dec) : run lib dec st = .ok s := by
  induction hw generalizing st with
  | nil => cases h; rfl
  | keep t _ ih =>
    cases h with
    | cons hs _ hr => simp only [run, hs, Res.bind]; exact ih hr
  | indent t w ht _ ih =>
    cases h with
    | cons hs hq hr => simp only [run, quiet_chars lib (hq ht) w, Res.bind, hs]; exact ih hr
  | empty _ ih =>
    cases h with
    | cons hs _ hr =>
      rw [empty_chars] at hs
      cases hs
      exact ih hr

/-- Between fields. -/
def rest (title : Bytes) (fs : List (FieldData F)) : St F := { title := title, fields := fs }

/-- In a field, between its parts. -/
def inner (title : Bytes) (fs : List (FieldData F)) (f : FieldData F) (v l d : Bytes) : St F :=
  { title := title, fields := fs, cur := some f, value := v, label := l, description := d, inField := true }

variable {lib : Lib F} {title : Bytes} {fs : List (FieldData F)} {f : FieldData F} {v l d : Bytes}

theorem not_leaf {n : Bytes} (h : n ∈ [b!"label", b!"desc", b!"value", b!"text", b!"pattern", b!"script"]) : ¬ Indentable (.close n) := fun hi => hi h

theorem runs_label (t : Bytes) (hl : f.label = []) :
    Runs lib (if t ≠ [] then textElem b!"label" t else []) (inner title fs f [] [] d) (inner title fs { f with label := trimSpace t } [] t d) := by
  by_cases h : t = []
  · subst h
    have : { f with label := trimSpace [] } = f := by cases f; simp_all [trimSpace]
    simp only [ne_eq, not_true, if_false, this]
    exact .nil _
  · rw [if_pos h]
    refine .cons (s := { inner title fs f [] [] d with inLabel := true }) (by simp [step, onStart, inner]) (fun _ => .inr ⟨rfl, rfl, rfl⟩) ?_
    refine .cons (s := { inner title fs f [] t d with inLabel := true }) (by simp [step, inner]) (by simp [Indentable]) ?_
    refine .cons ?_ (fun h => absurd h (not_leaf (by simp))) (.nil _)
    simp [step, onEnd, inner]

theorem runs_desc (t : Bytes) (hl : f.description = []) :
    Runs lib (if t ≠ [] then textElem b!"desc" t else []) (inner title fs f [] l []) (inner title fs { f with description := trimSpace t } [] l t) := by
  by_cases h : t = []
  · subst h
    have : { f with description := trimSpace [] } = f := by cases f; simp_all [trimSpace]
    simp only [ne_eq, not_true, if_false, this]
    exact .nil _
  · rw [if_pos h]
    refine .cons (s := { inner title fs f [] l [] with inDescription := true }) (by simp [step, onStart, inner]) (fun _ => .inr ⟨rfl, rfl, rfl⟩) ?_
    refine .cons (s := { inner title fs f [] l t with inDescription := true }) (by simp [step, inner]) (by simp [Indentable]) ?_
    refine .cons ?_ (fun h => absurd h (not_leaf (by simp))) (.nil _)
    simp [step, onEnd, inner]

theorem runs_value (t : Bytes) (hv : f.value = []) (hd : f.dflt = []) :
    Runs lib (textElem b!"value" t) (inner title fs f [] l d) (inner title fs { f with value := trimSpace t, dflt := trimSpace t } t l d) := by
  refine .cons (s := { inner title fs f [] l d with inValue := true }) (by simp [step, onStart, inner]) (fun _ => .inr ⟨rfl, rfl, rfl⟩) ?_
  refine .cons (s := { inner title fs f t l d with inValue := true }) (by simp [step, inner]) (by simp [Indentable]) ?_
  refine .cons ?_ (fun h => absurd h (not_leaf (by simp))) (.nil _)
  by_cases h : trimSpace t = []
  · have : { f with value := [], dflt := [] } = f := by cases f; simp_all
    simp [step, onEnd, inner, h, this]
  · simp [step, onEnd, inner, h, hd]

theorem runs_option (t : Bytes) :
    Runs lib (textElem b!"text" t) { inner title fs f v l d with inItems := true }
      { inner title fs { f with options := f.options ++ [[]] } [] l d with inItems := true } := by
  refine .cons (s := { inner title fs f [] l d with inItems := true }) (by simp [step, onStart, inner]) (fun _ => .inr ⟨rfl, rfl, rfl⟩) ?_
  refine .cons (s := { inner title fs f [] l d with inItems := true }) (by simp [step, inner]) (by simp [Indentable]) ?_
  refine .cons ?_ (fun h => absurd h (not_leaf (by simp))) (.nil _)
  simp [step, onEnd, inner, trimSpace]

theorem runs_options (os : List Choice) (f : FieldData F) (v : Bytes) :
    ∃ v', (v' = v ∨ v' = []) ∧ Runs lib (os.flatMap fun o => textElem b!"text" o.value) { inner title fs f v l d with inItems := true }
      { inner title fs { f with options := f.options ++ os.map fun _ => [] } v' l d with inItems := true } := by
  induction os generalizing f v with
  | nil => exact ⟨v, .inl rfl, by simpa using Runs.nil _⟩
  | cons o os ih =>
    obtain ⟨v', hv, hr⟩ := ih { f with options := f.options ++ [[]] } []
    refine ⟨v', .inr (by rcases hv with h | h <;> exact h), ?_⟩
    have := (runs_option (lib := lib) (title := title) (fs := fs) (f := f) (v := v) (l := l) (d := d) o.value).append hr
    simpa using this

theorem runs_items (os : List Choice) (ho : f.options = []) :
    ∃ v', (v' = v ∨ v' = []) ∧ Runs lib (if os ≠ [] then
        [.start b!"items" []] ++ os.flatMap (fun o => textElem b!"text" o.value) ++ [.close b!"items"] else []) (inner title fs f v l d)
      (inner title fs { f with options := os.map fun _ => [] } v' l d) := by
  by_cases h : os = []
  · subst h
    have : { f with options := [] } = f := by cases f; simp_all
    exact ⟨v, .inl rfl, by simpa [this] using Runs.nil _⟩
  · obtain ⟨v', hv, hr⟩ := runs_options (lib := lib) (title := title) (fs := fs) (l := l) (d := d) os f v
    refine ⟨v', hv, ?_⟩
    rw [if_pos h]
    rw [ho, List.nil_append] at hr
    refine Runs.append (Runs.append (s := { inner title fs f v l d with inItems := true }) (.cons (s := { inner title fs f v l d with inItems := true }) ?_ (fun _ => .inr ⟨rfl, rfl, rfl⟩) (.nil _)) hr) ?_
    · simp [step, onStart, inner]
    · refine .cons ?_ (fun _ => .inr ⟨rfl, rfl, rfl⟩) (.nil _)
      simp [step, onEnd, inner]

theorem validate_attrs (r : Rules) :
    ((if r.pattern ≠ [] then [(b!"formatTest", b!"pattern")] else []) ++
     (if r.script ≠ [] then [(b!"scriptTest", r.script)] else []) ++
     (if r.message ≠ [] then [(b!"messageText", r.message)] else [])).foldl validateAttr {} = { script := r.script, message := r.message } := by
  obtain ⟨li, p, s, m⟩ := r
  simp only
  by_cases hp : p = [] <;> by_cases hs : s = [] <;> by_cases hm : m = [] <;> simp [hp, hs, hm, validateAttr]

theorem runs_validation (r : Rules) (hn : f.validation = none) :
    ∃ v', (v' = v ∨ v' = []) ∧ Runs lib (encodeValidation r) (inner title fs f v l d)
      (inner title fs { f with validation := some { script := r.script, message := r.message } } v' l d) := by
  have h1 : step lib (inner title fs f v l d) (.start b!"validate"
    ((if r.pattern ≠ [] then [(b!"formatTest", b!"pattern")] else []) ++
     (if r.script ≠ [] then [(b!"scriptTest", r.script)] else []) ++
     (if r.message ≠ [] then [(b!"messageText", r.message)] else []))) =
      .ok (inner title fs { f with validation := some { script := r.script, message := r.message } } v l d) := by
    simp only [step, onStart, inner, withCur, hn, Option.getD_none, validate_attrs]
    simp
  unfold encodeValidation
  by_cases hp : r.pattern = []
  · refine ⟨v, .inl rfl, ?_⟩
    rw [if_neg (by simpa using hp) (c := r.pattern ≠ []) (t := textElem b!"pattern" r.pattern), List.append_nil]
    refine .cons h1 (fun _ => .inr ⟨rfl, rfl, rfl⟩) (.cons ?_ (fun _ => .inr ⟨rfl, rfl, rfl⟩) (.nil _))
    simp [step, onEnd]
  · refine ⟨[], .inr rfl, ?_⟩
    rw [if_pos hp (t := textElem b!"pattern" r.pattern)]
    refine .cons h1 (fun _ => .inr ⟨rfl, rfl, rfl⟩) ?_
    refine .cons (s := inner title fs { f with validation := some { script := r.script, message := r.message } } [] l d)
      (by simp [step, onStart, inner, withCur]) (fun _ => .inr ⟨rfl, rfl, rfl⟩) ?_
    refine .cons (s := inner title fs { f with validation := some { script := r.script, message := r.message } } [] l d)
      (by simp [step, inner]) (by simp [Indentable]) ?_
    refine .cons (s := inner title fs { f with validation := some { script := r.script, message := r.message } } [] l d)
      (by simp [step, onEnd, inner, withCur, trimSpace]) (fun h => absurd h (not_leaf (by simp))) ?_
    refine .cons ?_ (fun _ => .inr ⟨rfl, rfl, rfl⟩) (.nil _)
    simp [step, onEnd, inner]

/-- The text of the default. -/
def dfltText (lib : Lib F) (q : Question F) : Bytes := match q.dflt with | some v => trimSpace (lib.print v) | none => []

/-- What is read for a written question. -/
def readField (lib : Lib F) (q : Question F) : FieldData F :=
  { (fieldAttrs lib q).foldl (fieldAttr lib) {} with
    label := trimSpace q.label
    description := trimSpace q.description
    value := dfltText lib q
    dflt := dfltText lib q
    options := q.options.map fun _ => []
    validation := q.validation.map fun v => { script := v.script, message := v.message }
    events := [] }

/-- Attributes touch only these. -/
structure Bare (f : FieldData F) : Prop where
  value : f.value = []
  dflt : f.dflt = []
  label : f.label = []
  description : f.description = []
  options : f.options = []
  validation : f.validation = none
  events : f.events = []

theorem bare_attr {f : FieldData F} (h : Bare f) (a : Bytes × Bytes) : Bare (fieldAttr lib f a) := by
  obtain ⟨h1, h2, h3, h4, h5, h6, h7⟩ := h
  unfold fieldAttr
  repeat' split
  all_goals exact ⟨h1, h2, h3, h4, h5, h6, h7⟩

theorem bare_attrs (as : List (Bytes × Bytes)) {f : FieldData F} (h : Bare f) : Bare (as.foldl (fieldAttr lib) f) := by
  induction as generalizing f with
  | nil => exact h
  | cons a as ih => exact ih (bare_attr h a)

theorem runs_question (q : Question F) : Runs lib (encodeQuestion lib q) (rest title fs) (rest title (fs ++ [readField lib q])) := by
  have hb : Bare ((fieldAttrs lib q).foldl (fieldAttr lib) {}) := bare_attrs _ ⟨rfl, rfl, rfl, rfl, rfl, rfl, rfl⟩
  have hstart : step lib (rest title fs) (.start b!"field" (fieldAttrs lib q)) =
      .ok (inner title fs ((fieldAttrs lib q).foldl (fieldAttr lib) {}) [] [] []) := by simp [step, onStart, rest, inner]
  unfold encodeQuestion readField
  generalize (fieldAttrs lib q).foldl (fieldAttr lib) {} = f0 at *
  obtain ⟨b1, b2, b3, b4, b5, b6, b7⟩ := hb
  -- the value
  have hval : ∃ v, (v = [] ∨ trimSpace v = dfltText lib q) ∧
      Runs lib (match q.dflt with | some v => textElem b!"value" (lib.print v) | none => [])
        (inner title fs { f0 with label := trimSpace q.label, description := trimSpace q.description } [] q.label q.description)
        (inner title fs { f0 with label := trimSpace q.label, description := trimSpace q.description, value := dfltText lib q, dflt := dfltText lib q }
          v q.label q.description) := by
    unfold dfltText
    cases hq : q.dflt with
    | none =>
      refine ⟨[], .inl rfl, ?_⟩
      have : { f0 with label := trimSpace q.label, description := trimSpace q.description, value := [], dflt := [] } =
        { f0 with label := trimSpace q.label, description := trimSpace q.description } := by cases f0; simp_all
      simp only [this]
      exact .nil _
    | some v => exact ⟨lib.print v, .inr rfl, runs_value (lib.print v) b1 b2⟩
  obtain ⟨v1, hv1, r1⟩ := hval
  obtain ⟨v2, hv2, r2⟩ := runs_items (lib := lib) (title := title) (fs := fs)
    (f := { f0 with label := trimSpace q.label, description := trimSpace q.description, value := dfltText lib q, dflt := dfltText lib q })
    (v := v1) (l := q.label) (d := q.description) q.options b5
  have hvalid : ∃ v3, (v3 = v2 ∨ v3 = []) ∧ Runs lib (match q.validation with | some v => encodeValidation v | none => [])
      (inner title fs { f0 with label := trimSpace q.label, description := trimSpace q.description, value := dfltText lib q, dflt := dfltText lib q,
                                options := q.options.map fun _ => [] } v2 q.label q.description)
      (inner title fs { f0 with label := trimSpace q.label, description := trimSpace q.description, value := dfltText lib q, dflt := dfltText lib q,
                                options := q.options.map fun _ => []
                                validation := q.validation.map fun v => { script := v.script, message := v.message } } v3 q.label q.description) := by
    cases hq : q.validation with
    | none =>
      refine ⟨v2, .inl rfl, ?_⟩
      have : { f0 with label := trimSpace q.label, description := trimSpace q.description, value := dfltText lib q, dflt := dfltText lib q,
                       options := q.options.map (fun _ => ([] : Bytes)), validation := Option.map (fun v : Rules => ({ script := v.script, message := v.message } : Rules)) none } =
        { f0 with label := trimSpace q.label, description := trimSpace q.description, value := dfltText lib q, dflt := dfltText lib q,
                       options := q.options.map (fun _ => ([] : Bytes)) } := by cases f0; simp_all
      simp only [this]
      exact .nil _
    | some r => exact runs_validation r b6
  obtain ⟨v3, hv3, r3⟩ := hvalid
  have hv : v3 = [] ∨ trimSpace v3 = dfltText lib q := by
    rcases hv3 with rfl | h
    · rcases hv2 with rfl | h
      · exact hv1
      · exact .inl h
    · exact .inl h
  refine Runs.append (Runs.append (Runs.append (Runs.append (Runs.append (Runs.append (.cons hstart (fun _ => .inl rfl) (.nil _)) (runs_label q.label b3)) (runs_desc q.description b4)) r1) r2) r3) ?_
  refine .cons ?_ (fun _ => .inr ⟨rfl, rfl, rfl⟩) (.nil _)
  simp only [step, onEnd, if_true, inner, rest, finish]
  have e0 : trimSpace ([] : Bytes) = [] := by decide
  have hl : ∀ (t : Bytes) (x : Bytes), x = trimSpace t → (if t ≠ [] then trimSpace t else x) = x := by
    intro t x hx; split <;> simp_all
  cases f0
  simp only at b1 b2 b3 b4 b5 b6 b7
  subst b7
  congr 3
  by_cases h3 : v3 = [] <;> by_cases hL : q.label = [] <;> by_cases hD : q.description = [] <;> rcases hv with hv | hv <;>
    simp_all

theorem runs_questions (qs : List (Question F)) (fs : List (FieldData F)) :
    Runs lib (qs.flatMap (encodeQuestion lib)) (rest title fs) (rest title (fs ++ qs.map (readField lib))) := by
  induction qs generalizing fs with
  | nil => simpa using Runs.nil _
  | cons q qs ih => simpa using (runs_question q).append (ih (fs ++ [readField lib q]))

theorem runs_rule (r : Rule) : Runs lib (encodeRule r) (rest title fs) (rest title fs) := by
  have hq : Quiet (rest title fs) := .inl rfl
  unfold encodeRule
  refine Runs.append (Runs.append (.cons (s := rest title fs) (by simp [step, onStart, rest]) (fun _ => hq) (.nil _)) ?_) (.cons (by simp [step, onEnd]) (fun _ => hq) (.nil _))
  split
  · refine Runs.append (Runs.append (s := rest title fs) (.cons (s := rest title fs) (by simp [step, onStart, rest]) (fun _ => hq) (.nil _)) ?_)
      (.cons (by simp [step, onEnd, rest]) (fun _ => hq) (.nil _))
    simp only
    split
    · exact .cons (quiet_chars lib hq _) (fun _ => hq) (.nil _)
    · exact .nil _
  · exact .nil _

theorem runs_rules (rs : List Rule) : Runs lib (rs.flatMap encodeRule) (rest title fs) (rest title fs) := by
  induction rs with
  | nil => exact .nil _
  | cons r rs ih => simpa using (runs_rule r).append ih

/-- What is read for a written schema. -/
theorem read_written (lib : Lib F) (s : Schema F) {dec : List Tok} (hw : Woven (formToXFA lib s) dec) :
    run lib dec {} = .ok (rest s.title (s.questions.map (readField lib))) := by
  refine Runs.woven ?_ hw
  unfold formToXFA
  refine Runs.append (Runs.append (Runs.append (s := rest s.title []) (.cons (s := rest s.title []) ?_ (fun _ => .inl rfl) (.nil _)) ?_) (runs_rules (title := s.title) (fs := s.questions.map (readField lib)) s.rules)) ?_
  · by_cases h : s.title = [] <;> simp [step, onStart, rest, h]
  · simpa using runs_questions (lib := lib) (title := s.title) s.questions []
  · exact .cons (by simp [step, onEnd]) (fun _ => .inl rfl) (.nil _)

/-! ### The attributes of a written field -/

/-- What is read for a layout property. -/
def layoutRead (lib : Lib F) (v : DVal F) : DVal F :=
  match lib.parse (trimSpace (lib.print v)) with | some x => .float x | none => .str (lib.print v)

/-- A layout property. -/
def isLayout (n : Bytes) : Prop := n = b!"x" ∨ n = b!"y" ∨ n = b!"w" ∨ n = b!"h"

instance (n : Bytes) : Decidable (isLayout n) := by unfold isLayout; infer_instance

/-- The layout properties that are read. -/
def layoutAll (lib : Lib F) (ps m : List (Bytes × DVal F)) : List (Bytes × DVal F) :=
  ps.foldl (fun m p => if isLayout p.1 then Map.set m p.1 (layoutRead lib p.2) else m) m

theorem layout_attr (lib : Lib F) (f : FieldData F) (n t : Bytes) (h : isLayout n) :
    fieldAttr lib f (n, t) = { f with properties := Map.set f.properties n (match lib.parse (trimSpace t) with | some x => .float x | none => .str t) } := by
  rcases h with rfl | rfl | rfl | rfl <;> (simp only [fieldAttr, reduceIte, List.cons.injEq]; rfl)

theorem layout_fold (lib : Lib F) (ps : List (Bytes × DVal F)) (f : FieldData F) :
    (ps.filterMap fun p => if p.1 = b!"x" ∨ p.1 = b!"y" ∨ p.1 = b!"w" ∨ p.1 = b!"h" then some (p.1, lib.print p.2) else none).foldl (fieldAttr lib) f =
      { f with properties := layoutAll lib ps f.properties } := by
  induction ps generalizing f with
  | nil => rfl
  | cons p ps ih =>
    by_cases h : isLayout p.1
    · have h' := h
      unfold isLayout at h'
      rw [List.filterMap_cons, if_pos h']
      simp only [List.foldl_cons]
      rw [layout_attr lib f p.1 _ h, ih]
      simp [layoutAll, h, layoutRead]
    · have h' := h
      unfold isLayout at h'
      rw [List.filterMap_cons, if_neg h']
      simp only
      rw [ih]
      simp [layoutAll, h]

theorem layoutAll_get (lib : Lib F) (ps : List (Bytes × DVal F)) (hn : (ps.map (·.1)).Nodup) (m : List (Bytes × DVal F)) (n : Bytes) :
    Map.get (layoutAll lib ps m) n = (if isLayout n then (Map.get ps n).map (layoutRead lib) else none).or (Map.get m n) := by
  induction ps generalizing m with
  | nil => simp [layoutAll, Map.get]
  | cons p ps ih =>
    obtain ⟨k, v⟩ := p
    have hk : k ∉ ps.map (·.1) := (List.nodup_cons.1 hn).1
    have hs : layoutAll lib ((k, v) :: ps) m = layoutAll lib ps (if isLayout k then Map.set m k (layoutRead lib v) else m) := rfl
    rw [hs, ih (List.nodup_cons.1 hn).2]
    by_cases e : n = k
    · subst e
      have h0 : Map.get ps n = none := (Map.get_none_iff ps n).2 hk
      have h1 : Map.get ((n, v) :: ps) n = some v := by simp [Map.get]
      by_cases hl : isLayout n <;> simp [h0, h1, hl, Map.get_set]
    · have e' : ¬ k = n := fun h => e h.symm
      have h1 : Map.get ((k, v) :: ps) n = Map.get ps n := by simp [Map.get, e']
      rw [h1]
      congr 1
      split
      · rw [Map.get_set, if_neg e]
      · rfl

/-- The page that is written. -/
def pageOf (q : Question F) : Option Int :=
  match Map.get q.properties b!"page_number" with | some (.int n) => if n > 0 then some n else none | _ => none

theorem attrs_read (lib : Lib F) (q : Question F) (hp : ∀ n, pageOf q = some n → n ≤ 9223372036854775807) :
    (fieldAttrs lib q).foldl (fieldAttr lib) {} =
      { name := q.name, type := if q.type ≠ [] then typeToXFA q.type else [], required := q.required, readOnly := q.readOnly
        hidden := q.hidden && !q.readOnly, page := (pageOf q).getD 1, properties := layoutAll lib q.properties [] } := by
  unfold fieldAttrs
  simp only [List.foldl_append, List.foldl_cons, List.foldl_nil]
  have h1 : fieldAttr lib {} (b!"name", q.name) = { name := q.name } := by simp [fieldAttr]
  rw [h1]
  have h2 : ∀ f : FieldData F, f.type = [] → (if q.type ≠ [] then [(b!"type", typeToXFA q.type)] else []).foldl (fieldAttr lib) f =
      { f with type := if q.type ≠ [] then typeToXFA q.type else [] } := by
    intro f hf
    by_cases h : q.type = []
    · cases f; simp_all
    · simp [h, fieldAttr]
  rw [h2 _ rfl]
  have h3 : ∀ f : FieldData F, f.required = false → (if q.required then [(b!"required", b!"1")] else []).foldl (fieldAttr lib) f = { f with required := q.required } := by
    intro f hf
    cases h : q.required
    · cases f; simp_all
    · simp [fieldAttr, show parseBool b!"1" = true by decide]
  rw [h3 _ rfl]
  have h4 : ∀ f : FieldData F, f.readOnly = false → f.hidden = false →
      (if q.readOnly then [(b!"access", b!"readOnly")] else if q.hidden then [(b!"access", b!"hidden")] else []).foldl (fieldAttr lib) f =
        { f with readOnly := q.readOnly, hidden := q.hidden && !q.readOnly } := by
    intro f hf hh
    cases h : q.readOnly <;> cases h' : q.hidden <;> cases f <;> simp_all [fieldAttr]
  rw [h4 _ rfl rfl, layout_fold]
  have h5 : ∀ f : FieldData F, f.page = 1 → (match Map.get q.properties b!"page_number" with
      | some (.int n) => if n > 0 then [(b!"page", itoa n)] else []
      | _ => []).foldl (fieldAttr lib) f = { f with page := (pageOf q).getD 1 } := by
    intro f hf
    unfold pageOf at hp ⊢
    split
    · rename_i n _
      by_cases h : n > 0
      · have : atoi (itoa n) = some n := Manipulate.atoi_itoa n (by omega) (hp n (by simp_all))
        simp [h, fieldAttr, this]
      · rw [if_neg h, if_neg h]
        cases f
        simp only at hf
        subst hf
        rfl
    · cases f; simp_all
  exact h5 _ rfl

/-! ### Bodies of fields -/

/-- What the attributes of a field say. -/
def key (f : FieldData F) : Bytes × Bytes × Bool × Bool × Int := (f.name, f.type, f.readOnly, f.hidden, f.page)

/-- What the body of a field does not change. -/
def Same (st s : St F) : Prop := s.fields = st.fields ∧ s.sub = st.sub ∧ s.inSub = st.inSub ∧ s.cur.map key = st.cur.map key ∧ s.inField = st.inField

/-- The step, if it succeeds, changes none of that. -/
def Keeps (st : St F) (r : Res (St F)) : Prop := ∀ s, r = .ok s → Same st s

theorem keeps_ite {st : St F} {c : Prop} [Decidable c] {a b : Res (St F)} (ha : c → Keeps st a) (hb : ¬ c → Keeps st b) : Keeps st (if c then a else b) := by
  split
  · exact ha ‹_›
  · exact hb ‹_›

theorem same_ite {st : St F} {c : Prop} [Decidable c] {a b : St F} (ha : Same st a) (hb : Same st b) : Same st (if c then a else b) := by
  split <;> assumption

theorem keeps_ok {st s : St F} (h : Same st s) : Keeps st (.ok s) := by
  intro s' hs; cases hs; exact h

theorem keeps_field {st : St F} (k : FieldData F → St F) (hk : ∀ f, st.cur = some f → Same st (k f)) :
    Keeps st (if st.inField then withCur st k else .ok st) := by
  refine keeps_ite (fun _ => ?_) (fun _ => keeps_ok ⟨rfl, rfl, rfl, rfl, rfl⟩)
  unfold withCur
  intro s hs
  cases hc : st.cur with
  | none => rw [hc] at hs; cases hs
  | some f => rw [hc] at hs; cases hs; exact hk f hc

theorem same_refl (st : St F) : Same st st := ⟨rfl, rfl, rfl, rfl, rfl⟩

theorem key_bind (as : List (Bytes × Bytes)) (f : FieldData F) :
    key (as.foldl (fun f a => if a.1 = b!"match" ∧ a.2 = b!"none" then { f with required := false } else f) f) = key f := by
  induction as generalizing f with
  | nil => rfl
  | cons a as ih => rw [List.foldl_cons, ih]; split <;> rfl

theorem plain_step (lib : Lib F) (st : St F) (t : Tok) (h : Plain t) : Keeps st (step lib st t) := by
  have hset : ∀ (f g : FieldData F), st.cur = some f → key g = key f → Same st { st with cur := some g } := fun f g hf hk => by
    refine ⟨rfl, rfl, rfl, ?_, rfl⟩
    simp [hf, hk]
  cases t with
  | chars t =>
    refine keeps_ok ?_
    exact same_ite (same_refl st) (same_ite (same_refl st) (same_ite (same_refl st) (same_refl st)))
  | start n as =>
    obtain ⟨p1, p2⟩ := h
    show Keeps st (onStart lib st n as)
    unfold onStart
    refine keeps_ite (fun _ => keeps_ok (same_refl st)) fun _ => keeps_ite (fun e => absurd e p2) fun _ => keeps_ite (fun e => absurd e p1) fun _ => ?_
    refine keeps_ite (fun _ => keeps_ok (same_ite (same_refl st) (same_refl st))) fun _ => keeps_ite (fun _ => keeps_ok (same_ite (same_refl st) (same_refl st))) fun _ => ?_
    refine keeps_ite (fun _ => keeps_ok (same_ite (same_refl st) (same_refl st))) fun _ => keeps_ite (fun _ => keeps_ok (same_ite (same_refl st) (same_refl st))) fun _ => ?_
    refine keeps_ite (fun _ => keeps_ok (same_ite (same_refl st) (same_refl st))) fun _ => keeps_ite (fun _ => keeps_field _ fun f hf => hset f _ hf rfl) fun _ => ?_
    refine keeps_ite (fun _ => keeps_field _ fun f hf => same_ite (same_refl st) (same_refl st)) fun _ => keeps_ite (fun _ => keeps_field _ fun f hf => hset f _ hf rfl) fun _ => ?_
    refine keeps_ite (fun _ => keeps_field _ fun f hf => same_ite (same_refl st) (same_refl st)) fun _ => keeps_ite (fun _ => keeps_field _ fun f hf => hset f _ hf (key_bind as f)) fun _ => ?_
    exact keeps_ok (same_refl st)
  | close n =>
    obtain ⟨p1, p2⟩ := h
    show Keeps st (onEnd st n)
    have hmap : ∀ (c : Bool) (k : FieldData F → FieldData F), (∀ f, key (k f) = key f) → (if c = true then st.cur.map k else st.cur).map key = st.cur.map key := by
      intro c k hk; cases c <;> cases st.cur <;> simp [hk]
    unfold onEnd
    refine keeps_ite (fun e => absurd e p1) fun _ => keeps_ite (fun e => absurd e p2) fun _ => ?_
    refine keeps_ite (fun _ => keeps_ok ⟨rfl, rfl, rfl, ?_, rfl⟩) fun _ => keeps_ite (fun _ => keeps_ok ⟨rfl, rfl, rfl, hmap _ _ fun _ => rfl, rfl⟩) fun _ => ?_
    · cases st.inField <;> cases st.cur <;> simp
      split <;> rfl
    refine keeps_ite (fun _ => keeps_ok ⟨rfl, rfl, rfl, hmap _ _ fun _ => rfl, rfl⟩) fun _ => keeps_ite (fun _ => keeps_ok (same_refl st)) fun _ => ?_
    refine keeps_ite (fun _ => keeps_ok ⟨rfl, rfl, rfl, hmap _ _ fun _ => rfl, rfl⟩) fun _ => keeps_ite (fun _ => keeps_field _ fun f hf => hset f _ hf rfl) fun _ => ?_
    exact keeps_ite (fun _ => keeps_field _ fun f hf => hset f _ hf rfl) fun _ => keeps_ok (same_refl st)

theorem plain_run (lib : Lib F) (toks : List Tok) (h : ∀ t ∈ toks, Plain t) (st : St F) : Keeps st (run lib toks st) := by
  induction toks generalizing st with
  | nil => exact keeps_ok (same_refl st)
  | cons t ts ih =>
    intro s hs
    simp only [run] at hs
    cases h1 : step lib st t with
    | ok s1 =>
      rw [h1] at hs
      obtain ⟨a1, a2, a3, a4, a5⟩ := plain_step lib st t (h t (by simp)) s1 h1
      obtain ⟨b1, b2, b3, b4, b5⟩ := ih (fun t ht => h t (List.mem_cons_of_mem _ ht)) s1 s hs
      exact ⟨b1.trans a1, b2.trans a2, b3.trans a3, b4.trans a4, b5.trans a5⟩
    | err => rw [h1] at hs; cases hs
    | panic => rw [h1] at hs; cases hs

theorem key_finish (st : St F) (f : FieldData F) : key (finish st f) = key f := by
  unfold finish
  simp only
  repeat' split
  all_goals rfl

/-- A field of a template is read as one field, with what its attributes say. -/
theorem field_run (lib : Lib F) (f : TField) (hb : ∀ t ∈ f.body, Plain t) (st : St F) (hg : Good st) :
    ∃ g s, run lib f.toks st = .ok s ∧ Good s ∧ key g = key (f.attrs.foldl (fieldAttr lib) {}) ∧
      s.inSub = st.inSub ∧ (match st.inSub, st.sub with
        | true, some l => s.sub = some (l ++ [g]) ∧ s.fields = st.fields
        | _, _ => s.sub = st.sub ∧ s.fields = st.fields ++ [g]) := by
  have h0 : step lib st (.start b!"field" f.attrs) = .ok { st with inField := true, cur := some (f.attrs.foldl (fieldAttr lib) {}) } := by
    simp [step, onStart]
  obtain ⟨s1, h1, g1⟩ := good_run lib f.body { st with inField := true, cur := some (f.attrs.foldl (fieldAttr lib) {}) } rfl
  obtain ⟨k1, k2, k3, k4, k5⟩ := plain_run lib f.body hb _ s1 h1
  simp only at k1 k2 k3 k4 k5
  cases hc : s1.cur with
  | none => rw [hc] at k4; cases k4
  | some g =>
    rw [hc] at k4
    simp only [Option.map_some, Option.some.injEq] at k4
    obtain ⟨s2, h2, g2⟩ := good_step lib s1 g1 (.close b!"field")
    refine ⟨finish s1 g, s2, ?_, g2, (key_finish _ _).trans k4, ?_⟩
    · unfold TField.toks
      simp only [run, h0, Res.bind, run_append, h1]
      rw [h2]
    · simp only [step, onEnd, if_true, hc, Res.ok.injEq] at h2
      rw [← k2, ← k1, ← k3]
      cases hi : s1.inSub with
      | false => simp only [hi] at h2; subst h2; exact ⟨rfl, rfl, rfl⟩
      | true =>
        cases hs : s1.sub with
        | none => simp only [hi, hs] at h2; subst h2; exact ⟨rfl, rfl, rfl⟩
        | some l => simp only [hi, hs] at h2; subst h2; exact ⟨rfl, rfl, rfl⟩

end Pdfer.FormXFA
