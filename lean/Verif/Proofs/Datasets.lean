import Verif.Spec.Datasets
import Verif.Proofs.Rotate
import Verif.Proofs.GoLib
import Verif.Proofs.DirectObject

/-! Reading back written form data. -/

namespace Pdfer.Datasets

open Pdfer.Go Pdfer.XFA Pdfer.Spec.Datasets Pdfer.Spec.Builder

variable {F : Type}

/-- The value read back for a written value. -/
def readBack (fl : Floats F) (v : DVal F) : DVal F := parseFieldValue fl (trimSpace (formatFieldValue fl v))

/-! ### Text between elements is ignored -/

/-- Wherever the encoder may indent, the reader is not inside a value. -/
def Calm (fl : Floats F) : St F → List Tok → Prop
  | _, [] => True
  | st, t :: ts => (Indentable t → st.inValue = false) ∧ Calm fl (step fl st t) ts

theorem calm_append (fl : Floats F) (a b : List Tok) (st : St F) :
    Calm fl st (a ++ b) ↔ Calm fl st a ∧ Calm fl (a.foldl (step fl) st) b := by
  induction a generalizing st with
  | nil => simp [Calm]
  | cons t ts ih => simp [Calm, ih, and_assoc]

theorem step_empty (fl : Floats F) (st : St F) : step fl st (.chars []) = st := by simp [step]

theorem woven_fold (fl : Floats F) {enc dec : List Tok} (h : Woven enc dec) (st : St F) (hc : Calm fl st enc) :
    dec.foldl (step fl) st = enc.foldl (step fl) st := by
  induction h generalizing st with
  | nil => rfl
  | keep t _ ih => simpa using ih _ hc.2
  | indent t w ht _ ih =>
    have : step fl st (.chars w) = st := by simp [step, hc.1 ht]
    simpa [this] using ih _ hc.2
  | empty _ ih =>
    have := ih _ hc.2
    simpa [step_empty] using this

/-! ### One field -/

/-- Between fields, inside the data. -/
structure Rest (st : St F) : Prop where
  name : st.name = []
  value : st.value = []
  inField : st.inField = false
  inValue : st.inValue = false
  inData : st.inData = true

/-- One more field, in the current group or at the top. -/
def addF (st : St F) (n : Bytes) (v : DVal F) : St F :=
  match st.cur with
  | some (.mk gn gf gg) => { st with cur := some (.mk gn (Map.set gf n v) gg) }
  | none => { st with data := { st.data with fields := Map.set st.data.fields n v } }

theorem addF_rest {st : St F} (h : Rest st) (n : Bytes) (v : DVal F) : Rest (addF st n v) := by
  unfold addF; split <;> exact ⟨h.1, h.2, h.3, h.4, h.5⟩

theorem field_run (fl : Floats F) (st : St F) (h : Rest st) (f : Bytes × DVal F) (hn : f.1 ≠ []) :
    (encField fl f).foldl (step fl) st = addF st f.1 (readBack fl f.2) := by
  obtain ⟨data, cur, name, value, inData, inField, inValue, inGroup, stack⟩ := st
  obtain ⟨h1, h2, h3, h4, h5⟩ := h
  simp only at h1 h2 h3 h4 h5
  subst h1 h2 h3 h4 h5
  cases cur with
  | none => simp [encField, step, onStart, onEnd, hn, addF, readBack]
  | some g => obtain ⟨gn, gf, gg⟩ := g; simp [encField, step, onStart, onEnd, hn, addF, readBack]

theorem field_calm (fl : Floats F) (st : St F) (h : Rest st) (f : Bytes × DVal F) : Calm fl st (encField fl f) := by
  obtain ⟨data, cur, name, value, inData, inField, inValue, inGroup, stack⟩ := st
  obtain ⟨h1, h2, h3, h4, h5⟩ := h
  simp only at h1 h2 h3 h4 h5
  subst h1 h2 h3 h4 h5
  simp [encField, step, onStart, onEnd, Calm, Indentable]

/-- The fields, one after the other. -/
def addFs (fl : Floats F) (fs : List (Bytes × DVal F)) (st : St F) : St F := fs.foldl (fun st f => addF st f.1 (readBack fl f.2)) st

theorem fields_run (fl : Floats F) (fs : List (Bytes × DVal F)) (hn : ∀ f ∈ fs, f.1 ≠ []) (st : St F) (h : Rest st) :
    (fs.flatMap (encField fl)).foldl (step fl) st = addFs fl fs st ∧ Calm fl st (fs.flatMap (encField fl)) ∧ Rest (addFs fl fs st) := by
  induction fs generalizing st with
  | nil => exact ⟨rfl, by simp [Calm], h⟩
  | cons f fs ih =>
    have hf := field_run fl st h f (hn f (by simp))
    have := ih (fun g hg => hn g (List.mem_cons_of_mem _ hg)) _ (addF_rest h f.1 (readBack fl f.2))
    simp only [List.flatMap_cons, List.foldl_append, calm_append, hf]
    exact ⟨this.1, ⟨field_calm fl st h f, this.2.1⟩, this.2.2⟩

/-- The map after the fields are added to it. -/
def setAll (fl : Floats F) (fs : List (Bytes × DVal F)) (m : List (Bytes × DVal F)) : List (Bytes × DVal F) :=
  fs.foldl (fun m f => Map.set m f.1 (readBack fl f.2)) m

theorem addFs_group (fl : Floats F) (fs : List (Bytes × DVal F)) (st : St F) (gn : Bytes) (gf : List (Bytes × DVal F)) (gg : List (Group F))
    (h : st.cur = some (.mk gn gf gg)) : addFs fl fs st = { st with cur := some (.mk gn (setAll fl fs gf) gg) } := by
  induction fs generalizing st gf with
  | nil => cases st; simp_all [addFs, setAll]
  | cons f fs ih =>
    have h1 : addF st f.1 (readBack fl f.2) = { st with cur := some (.mk gn (Map.set gf f.1 (readBack fl f.2)) gg) } := by simp [addF, h]
    have h2 : addFs fl (f :: fs) st = addFs fl fs (addF st f.1 (readBack fl f.2)) := rfl
    rw [h2, h1, ih _ (Map.set gf f.1 (readBack fl f.2)) rfl]
    rfl

theorem addFs_top (fl : Floats F) (fs : List (Bytes × DVal F)) (st : St F) (h : st.cur = none) :
    addFs fl fs st = { st with data := { st.data with fields := setAll fl fs st.data.fields } } := by
  induction fs generalizing st with
  | nil => rfl
  | cons f fs ih =>
    have h1 : addF st f.1 (readBack fl f.2) = { st with data := { st.data with fields := Map.set st.data.fields f.1 (readBack fl f.2) } } := by
      simp [addF, h]
    have h2 : addFs fl (f :: fs) st = addFs fl fs (addF st f.1 (readBack fl f.2)) := rfl
    rw [h2, h1]
    exact ih _ h

theorem setAll_get (fl : Floats F) (fs : List (Bytes × DVal F)) (hn : (fs.map (·.1)).Nodup) (m : List (Bytes × DVal F)) (n : Bytes) :
    Map.get (setAll fl fs m) n = ((Map.get fs n).map (readBack fl)).or (Map.get m n) := by
  induction fs generalizing m with
  | nil => simp [setAll, Map.get]
  | cons f fs ih =>
    obtain ⟨k, v⟩ := f
    have hk : k ∉ fs.map (·.1) := (List.nodup_cons.1 hn).1
    have hs : setAll fl ((k, v) :: fs) m = setAll fl fs (Map.set m k (readBack fl v)) := rfl
    rw [hs, ih (List.nodup_cons.1 hn).2, Map.get_set]
    by_cases e : n = k
    · subst e
      have : Map.get fs n = none := (Map.get_none_iff fs n).2 hk
      have h1 : Map.get ((n, v) :: fs) n = some v := by simp [Map.get]
      simp [this, h1]
    · have e' : ¬ k = n := fun h => e h.symm
      have : Map.get ((k, v) :: fs) n = Map.get fs n := by simp [Map.get, e']
      simp [this, e]

theorem setAll_same (fl : Floats F) (fs : List (Bytes × DVal F)) (hn : FieldMap fs) :
    SameMap (setAll fl fs []) (fs.map fun f => (f.1, readBack fl f.2)) := by
  intro n
  rw [setAll_get fl fs hn.nodup]
  have : Map.get (fs.map fun f => (f.1, readBack fl f.2)) n = (Map.get fs n).map (readBack fl) := by
    clear hn
    induction fs with
    | nil => rfl
    | cons f fs ih =>
      by_cases e : f.1 = n
      · simp [Map.get, e]
      · have h1 : Map.get (f :: fs) n = Map.get fs n := by simp [Map.get, e]
        rw [h1, ← ih]; simp [Map.get, e]
  rw [this]
  cases Map.get fs n <;> simp [Map.get]

/-! ### Groups -/

theorem not_reserved {n : Bytes} (h : ¬ Reserved n) : standard n = false ∧ n ≠ b!"data" ∧ n ≠ b!"field" ∧ n ≠ b!"value" := by
  refine ⟨?_, ?_, ?_, ?_⟩
  · cases hs : standard n with
    | false => rfl
    | true => exact absurd (by simpa [standard, Reserved, List.contains_iff_mem] using hs) h
  all_goals
    rintro rfl
    exact h (by unfold Reserved; decide)

theorem start_group (st : St F) (h : st.inData = true) {n : Bytes} (hn : ¬ Reserved n) :
    onStart st n [] = { st with inGroup := true
                                stack := match st.cur with | some g => g :: st.stack | none => st.stack
                                cur := some (.mk n [] []) } := by
  obtain ⟨h0, h1, h2, h3⟩ := not_reserved hn
  simp only [onStart, h, h0, h1, h2, h3, if_false, Bool.not_false, Bool.and_self, if_true]
  cases st.cur <;> rfl

/-- Inside a group that will not be closed. -/
structure Stuck (st : St F) : Prop extends Rest st where
  cur : st.cur.isSome

theorem close_idle (fl : Floats F) (st : St F) {n : Bytes} (hn : ¬ Reserved n) (hi : st.inGroup = false) : onEnd fl st n = st := by
  obtain ⟨h0, h1, h2, h3⟩ := not_reserved hn
  simp [onEnd, h1, h2, h3, hi]

theorem rest_start {st : St F} (h : Rest st) (s : List (Group F)) (c : Option (Group F)) (i : Bool) :
    Rest { st with inGroup := i, stack := s, cur := c } := ⟨h.1, h.2, h.3, h.4, h.5⟩

mutual
theorem stuck_group (fl : Floats F) : ∀ (g : Group F), Named g → ∀ (st : St F), Stuck st → ∀ toks, encGroup fl g = some toks →
    Calm fl st toks ∧ Stuck (toks.foldl (step fl) st) ∧ (toks.foldl (step fl) st).data = st.data ∧
      (toks.foldl (step fl) st).inGroup = false
  | .mk n fs gs, hg, st, hst, toks, ht => by
    cases hg with
    | mk _ _ _ hne hr hf hgs =>
    simp only [encGroup, hne, if_false, Option.map_eq_some_iff] at ht
    obtain ⟨t, ht, rfl⟩ := ht
    obtain ⟨p, hp⟩ := Option.isSome_iff_exists.1 hst.cur
    have hs := start_group st hst.inData hr
    rw [hp] at hs
    simp only at hs
    have hr1 : Rest (onStart st n []) := by rw [hs]; exact rest_start hst.toRest _ _ _
    obtain ⟨hrun, hcalm, hr2⟩ := fields_run fl fs hf.names _ hr1
    have hadd : addFs fl fs (onStart st n []) = { st with inGroup := true, stack := p :: st.stack, cur := some (.mk n (setAll fl fs []) []) } := by
      rw [addFs_group fl fs _ n [] [] (by rw [hs]), hs]
    have hstuck2 : Stuck (addFs fl fs (onStart st n [])) := ⟨hr2, by rw [hadd]; rfl⟩
    cases gs with
    | nil =>
      simp only [encGroups, Option.some.injEq] at ht
      subst ht
      obtain ⟨h0, h1, h2, h3⟩ := not_reserved hr
      obtain ⟨pn, pf, pg⟩ := p
      have hend : onEnd fl (addFs fl fs (onStart st n [])) n =
          { st with inGroup := false, cur := some (.mk pn pf (pg ++ [.mk n (setAll fl fs []) []])) } := by
        rw [hadd]; simp [onEnd, h1, h2, h3, Group.name]
      have hfold : (Tok.start n [] :: (fs.flatMap (encField fl) ++ [] ++ [.close n])).foldl (step fl) st = onEnd fl (addFs fl fs (onStart st n [])) n := by
        simp only [List.foldl_cons, List.foldl_append, step, List.foldl_nil, hrun]
      rw [hfold]
      refine ⟨?_, ?_, by rw [hend], by rw [hend]⟩
      · simp only [Calm, calm_append, step, List.append_nil, hrun]
        exact ⟨fun _ => hst.inValue, hcalm, fun _ => hr2.inValue, True.intro⟩
      · rw [hend]; exact ⟨⟨hst.name, hst.value, hst.inField, hst.inValue, hst.inData⟩, rfl⟩
    | cons g gs =>
      obtain ⟨c1, s1, d1, i1⟩ := stuck_groups fl (g :: gs) hgs _ hstuck2 t ht
      have i1 := i1 (by simp)
      have hfold : (Tok.start n [] :: (fs.flatMap (encField fl) ++ t ++ [.close n])).foldl (step fl) st =
          t.foldl (step fl) (addFs fl fs (onStart st n [])) := by
        simp only [List.foldl_cons, List.foldl_append, step, List.foldl_nil, hrun]
        exact close_idle fl _ hr i1
      rw [hfold]
      refine ⟨?_, s1, ?_, i1⟩
      · simp only [Calm, calm_append, step, hrun, List.foldl_append]
        exact ⟨fun _ => hst.inValue, ⟨hcalm, c1⟩, fun _ => s1.inValue, True.intro⟩
      · rw [d1, hadd]
theorem stuck_groups (fl : Floats F) : ∀ (gs : List (Group F)), (∀ g ∈ gs, Named g) → ∀ (st : St F), Stuck st →
    ∀ toks, encGroups fl gs = some toks →
    Calm fl st toks ∧ Stuck (toks.foldl (step fl) st) ∧ (toks.foldl (step fl) st).data = st.data ∧
      (gs ≠ [] → (toks.foldl (step fl) st).inGroup = false)
  | [], _, st, hst, toks, ht => by
    simp only [encGroups, Option.some.injEq] at ht
    subst ht
    exact ⟨True.intro, hst, rfl, fun h => absurd rfl h⟩
  | g :: gs, hgs, st, hst, toks, ht => by
    simp only [encGroups, bind, pure, Option.bind_eq_some_iff, Option.some.injEq] at ht
    obtain ⟨t1, ht1, t2, ht2, rfl⟩ := ht
    obtain ⟨c1, s1, d1, i1⟩ := stuck_group fl g (hgs g (by simp)) st hst t1 ht1
    obtain ⟨c2, s2, d2, i2⟩ := stuck_groups fl gs (fun x hx => hgs x (List.mem_cons_of_mem _ hx)) _ s1 t2 ht2
    simp only [List.foldl_append, calm_append]
    refine ⟨⟨c1, c2⟩, s2, d2.trans d1, fun _ => ?_⟩
    cases gs with
    | nil =>
      simp only [encGroups, Option.some.injEq] at ht2
      subst ht2; exact i1
    | cons _ _ => exact i2 (by simp)
end

/-- A group without groups. -/
def leaf (g : Group F) : Bool := g.groups.isEmpty

/-- What is read for a group without groups. -/
def leafOf (fl : Floats F) (g : Group F) : Group F := .mk g.name (setAll fl g.fields []) []

/-- At the top, outside of all groups. -/
structure Top (st : St F) : Prop extends Rest st where
  cur : st.cur = none
  stack : st.stack = []

theorem top_leaf (fl : Floats F) (g : Group F) (hg : Named g) (hl : leaf g = true) (st : St F) (hst : Top st) (toks : List Tok)
    (ht : encGroup fl g = some toks) :
    Calm fl st toks ∧ toks.foldl (step fl) st = { st with data := { st.data with groups := st.data.groups ++ [leafOf fl g] }, inGroup := false } := by
  cases hg with
  | mk n fs gs hne hr hf hgs =>
  have : gs = [] := by simpa [leaf, Group.groups] using hl
  subst this
  simp only [encGroup, hne, if_false, encGroups, Option.map_some, Option.some.injEq] at ht
  subst ht
  have hs := start_group st hst.inData hr
  rw [hst.cur] at hs
  simp only at hs
  have hr1 : Rest (onStart st n []) := by rw [hs]; exact rest_start hst.toRest _ _ _
  obtain ⟨hrun, hcalm, hr2⟩ := fields_run fl fs hf.names _ hr1
  have hadd : addFs fl fs (onStart st n []) = { st with inGroup := true, stack := st.stack, cur := some (.mk n (setAll fl fs []) []) } := by
    rw [addFs_group fl fs _ n [] [] (by rw [hs]), hs]
  obtain ⟨h0, h1, h2, h3⟩ := not_reserved hr
  refine ⟨?_, ?_⟩
  · simp only [Calm, calm_append, step, List.append_nil, hrun]
    exact ⟨fun _ => hst.inValue, hcalm, fun _ => hr2.inValue, True.intro⟩
  · simp only [List.foldl_cons, List.foldl_append, step, List.foldl_nil, hrun, List.append_nil]
    rw [hadd]
    obtain ⟨data, cur, name, value, inData, inField, inValue, inGroup, stack⟩ := st
    have h4 := hst.cur; have h5 := hst.stack
    simp only at h4 h5
    subst h4 h5
    simp [onEnd, h1, h2, h3, Group.name, leafOf, Group.fields]

theorem top_node (fl : Floats F) (g : Group F) (hg : Named g) (hl : leaf g = false) (st : St F) (hst : Top st) (toks : List Tok)
    (ht : encGroup fl g = some toks) :
    Calm fl st toks ∧ Stuck (toks.foldl (step fl) st) ∧ (toks.foldl (step fl) st).data = st.data := by
  cases hg with
  | mk n fs gs hne hr hf hgs =>
  have hgs0 : gs ≠ [] := by simpa [leaf, Group.groups] using hl
  simp only [encGroup, hne, if_false, Option.map_eq_some_iff] at ht
  obtain ⟨t, ht, rfl⟩ := ht
  have hs := start_group st hst.inData hr
  rw [hst.cur] at hs
  simp only at hs
  have hr1 : Rest (onStart st n []) := by rw [hs]; exact rest_start hst.toRest _ _ _
  obtain ⟨hrun, hcalm, hr2⟩ := fields_run fl fs hf.names _ hr1
  have hadd : addFs fl fs (onStart st n []) = { st with inGroup := true, stack := st.stack, cur := some (.mk n (setAll fl fs []) []) } := by
    rw [addFs_group fl fs _ n [] [] (by rw [hs]), hs]
  have hstuck2 : Stuck (addFs fl fs (onStart st n [])) := ⟨hr2, by rw [hadd]; rfl⟩
  obtain ⟨c1, s1, d1, i1⟩ := stuck_groups fl gs hgs _ hstuck2 t ht
  have i1 := i1 hgs0
  have hfold : (Tok.start n [] :: (fs.flatMap (encField fl) ++ t ++ [.close n])).foldl (step fl) st =
      t.foldl (step fl) (addFs fl fs (onStart st n [])) := by
    simp only [List.foldl_cons, List.foldl_append, step, List.foldl_nil, hrun]
    exact close_idle fl _ hr i1
  rw [hfold]
  refine ⟨?_, s1, ?_⟩
  · simp only [Calm, calm_append, step, hrun, List.foldl_append]
    exact ⟨fun _ => hst.inValue, ⟨hcalm, c1⟩, fun _ => s1.inValue, True.intro⟩
  · rw [d1, hadd]

theorem top_groups (fl : Floats F) (gs : List (Group F)) (hgs : ∀ g ∈ gs, Named g) (st : St F) (hst : Top st) (toks : List Tok)
    (ht : encGroups fl gs = some toks) :
    Calm fl st toks ∧ (toks.foldl (step fl) st).inValue = false ∧
      (toks.foldl (step fl) st).data = { st.data with groups := st.data.groups ++ (gs.takeWhile leaf).map (leafOf fl) } := by
  induction gs generalizing st toks with
  | nil =>
    simp only [encGroups, Option.some.injEq] at ht
    subst ht
    exact ⟨True.intro, hst.inValue, by simp⟩
  | cons g gs ih =>
    simp only [encGroups, bind, pure, Option.bind_eq_some_iff, Option.some.injEq] at ht
    obtain ⟨t1, ht1, t2, ht2, rfl⟩ := ht
    have hg := hgs g (by simp)
    have hgs' : ∀ x ∈ gs, Named x := fun x hx => hgs x (List.mem_cons_of_mem _ hx)
    simp only [List.foldl_append, calm_append]
    cases hl : leaf g with
    | true =>
      obtain ⟨c1, e1⟩ := top_leaf fl g hg hl st hst t1 ht1
      rw [e1]
      obtain ⟨c2, v2, d2⟩ := ih hgs' { st with data := { st.data with groups := st.data.groups ++ [leafOf fl g] }, inGroup := false }
        ⟨⟨hst.name, hst.value, hst.inField, hst.inValue, hst.inData⟩, hst.cur, hst.stack⟩ t2 ht2
      exact ⟨⟨c1, c2⟩, v2, by rw [d2]; simp [List.takeWhile, hl]⟩
    | false =>
      obtain ⟨c1, s1, d1⟩ := top_node fl g hg hl st hst t1 ht1
      obtain ⟨c2, s2, d2, _⟩ := stuck_groups fl gs hgs' _ s1 t2 ht2
      exact ⟨⟨c1, c2⟩, s2.inValue, by rw [d2, d1]; simp [List.takeWhile, hl]⟩

/-- What is read back from written form data. -/
theorem read_written (fl : Floats F) (d : Datasets F) (hf : FieldMap d.fields) (hg : ∀ g ∈ d.groups, Named g)
    {enc dec : List Tok} (he : datasetsToXFA fl d = some enc) (hw : Woven enc dec) :
    parseDatasets fl dec = { fields := setAll fl d.fields [], groups := (d.groups.takeWhile leaf).map (leafOf fl) } := by
  simp only [datasetsToXFA, Option.map_eq_some_iff] at he
  obtain ⟨t, ht, rfl⟩ := he
  have h1 : Rest (onStart ({} : St F) b!"data" []) := ⟨rfl, rfl, rfl, rfl, rfl⟩
  obtain ⟨hrun, hcalm, hr2⟩ := fields_run fl d.fields hf.names _ h1
  have hadd := addFs_top fl d.fields (onStart ({} : St F) b!"data" []) rfl
  have htop : Top (addFs fl d.fields (onStart ({} : St F) b!"data" [])) := ⟨hr2, by rw [hadd]; rfl, by rw [hadd]; rfl⟩
  obtain ⟨c2, v2, d2⟩ := top_groups fl d.groups hg _ htop t ht
  have hc : Calm fl ({} : St F) (.start b!"data" [] :: (d.fields.flatMap (encField fl) ++ t ++ [.close b!"data"])) := by
    simp only [Calm, calm_append, step, hrun, List.foldl_append]
    exact ⟨fun _ => by simp, ⟨hcalm, c2⟩, fun _ => v2, True.intro⟩
  unfold parseDatasets
  rw [woven_fold fl hw _ hc]
  simp only [List.foldl_cons, List.foldl_append, step, hrun, List.foldl_nil]
  have hend : ∀ st : St F, (onEnd fl st b!"data").data = st.data := fun st => by simp [onEnd]
  rw [hend, d2, hadd]
  simp [onStart]

/-! ### Values -/

theorem trim_eq {s : Bytes} (h : Trimmed s) : trimSpace s = s := by
  unfold trimSpace
  have h1 : s.dropWhile isSpace = s := by
    cases s with
    | nil => rfl
    | cons c s => simp [h.1 c rfl]
  rw [h1]
  have h2 : s.reverse.dropWhile isSpace = s.reverse := by
    cases hr : s.reverse with
    | nil => rfl
    | cons c r =>
      have : s.getLast? = some c := by rw [← List.head?_reverse, hr]; rfl
      simp [h.2 c this]
  rw [h2, List.reverse_reverse]

theorem digit_not_space (c : UInt8) : isDigit c = true → isSpace c = false := by
  revert c; apply forall_byte; decide +kernel

theorem itoa_trimmed (n : Int) : Trimmed (itoa n) := by
  have h : ∀ c ∈ itoa n, isSpace c = false := by
    intro c hc
    have := Incremental.itoa_chars n c hc
    rcases this with h | h
    · exact digit_not_space c h
    · subst h; decide
  exact ⟨fun c hc => h c (List.mem_of_mem_head? hc), fun c hc => h c (List.mem_of_getLast? hc)⟩

theorem readBack_eq (fl : Floats F) (v : DVal F) (h : Unambiguous fl v) : readBack fl v = v := by
  cases v with
  | nil => exact absurd h id
  | bool b => cases b <;> rfl
  | int n =>
    obtain ⟨h1, h2, h3, h4⟩ := h
    have ha := Manipulate.atoi_itoa n h1 h2
    have hdec : trimSpace (itoa n) = itoa n := by
      obtain ⟨h1, h2⟩ := itoa_trimmed n
      exact trim_eq ⟨h1, h2⟩
    have hv : ∀ s m, atoi s = some m → m ≠ n → itoa n ≠ s := by
      intro s m hs hm he; rw [he, hs] at ha; exact hm (Option.some.inj ha)
    have h5 : itoa n ≠ b!"1" := hv _ 1 (by decide) (fun h => h4 h.symm)
    have h6 : itoa n ≠ b!"0" := hv _ 0 (by decide) (fun h => h3 h.symm)
    have h7 : itoa n ≠ b!"true" := by intro he; rw [he, show atoi b!"true" = none by decide] at ha; exact absurd ha (by simp)
    have h8 : itoa n ≠ b!"false" := by intro he; rw [he, show atoi b!"false" = none by decide] at ha; exact absurd ha (by simp)
    have h9 : itoa n ≠ [] := by intro he; rw [he, show atoi [] = none by decide] at ha; exact absurd ha (by simp)
    simp [readBack, formatFieldValue, hdec, parseFieldValue, h5, h6, h7, h8, h9, ha]
  | float x =>
    obtain ⟨h1, h2, h3, h4, h5, h6⟩ := h
    have h7 : fl.format x ≠ b!"1" := by intro he; rw [he] at h6; revert h6; decide
    have h8 : fl.format x ≠ b!"0" := by intro he; rw [he] at h6; revert h6; decide
    simp [readBack, formatFieldValue, trim_eq h2, parseFieldValue, h3, h4, h5, h6, h7, h8, h1]
  | str s =>
    obtain ⟨h1, h2, h3, h4⟩ := h
    by_cases hs : s = []
    · subst hs; rfl
    · obtain ⟨h5, h6⟩ := h4 hs
      have h7 : s ≠ b!"1" := by intro he; rw [he] at h5; revert h5; decide
      have h8 : s ≠ b!"0" := by intro he; rw [he] at h5; revert h5; decide
      simp [readBack, formatFieldValue, trim_eq h1, parseFieldValue, hs, h2, h3, h5, h6, h7, h8]

end Pdfer.Datasets
