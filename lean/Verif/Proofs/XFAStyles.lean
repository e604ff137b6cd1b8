import Verif.Proofs.XFAConfig

namespace Pdfer.XFASets

open Pdfer.Go Pdfer.XFA
open Pdfer.Spec.Xml Pdfer.Spec.XFASets Pdfer.Spec.Builder

variable {F : Type}

/-! ### No panic -/

/-- The parts are of their types. -/
def PartsOk (s : Style F) : Prop :=
  (∀ v, Map.get s.properties b!"margin" = some v → ∃ m, v = .margin m) ∧ (∀ v, Map.get s.properties b!"padding" = some v → ∃ m, v = .padding m) ∧
  (∀ v, Map.get s.properties b!"position" = some v → ∃ m, v = .position m) ∧ (∀ v, Map.get s.properties b!"size" = some v → ∃ m, v = .size m)

/-- The parts of the current style are of their types. -/
def YOk (st : YSt F) : Prop := ∀ s, st.cur = some s → PartsOk s

/-- The result is a state in which nothing can go wrong. -/
def YFine (r : Res (YSt F)) : Prop := ∃ st, r = .ok st ∧ YOk st

theorem yfine_ite {p : Prop} [Decidable p] {a b : Res (YSt F)} (ha : p → YFine a) (hb : ¬ p → YFine b) : YFine (if p then a else b) := by
  split
  · exact ha ‹_›
  · exact hb ‹_›

/-- Setting a property that is not one of the four, or is of its type. -/
theorem partsOk_set {s : Style F} (h : PartsOk s) (n : Bytes) (v : SVal F) (h1 : n = b!"margin" → ∃ m, v = .margin m) (h2 : n = b!"padding" → ∃ m, v = .padding m)
    (h3 : n = b!"position" → ∃ m, v = .position m) (h4 : n = b!"size" → ∃ m, v = .size m) : PartsOk { s with properties := Map.set s.properties n v } := by
  refine ⟨?_, ?_, ?_, ?_⟩
  all_goals
    intro w hw
    simp only [Map.get_set] at hw
    split at hw
  · obtain rfl := Option.some.inj hw; exact h1 (by rename_i e; exact e.symm)
  · exact h.1 w hw
  · obtain rfl := Option.some.inj hw; exact h2 (by rename_i e; exact e.symm)
  · exact h.2.1 w hw
  · obtain rfl := Option.some.inj hw; exact h3 (by rename_i e; exact e.symm)
  · exact h.2.2.1 w hw
  · obtain rfl := Option.some.inj hw; exact h4 (by rename_i e; exact e.symm)
  · exact h.2.2.2 w hw

theorem setPart_fine {st : YSt F} (h : YOk st) (n : Bytes) (k : Option (SVal F) → Res (SVal F))
    (hk : ∀ s, PartsOk s → ∃ v, k (Map.get s.properties n) = .ok v ∧ (n = b!"margin" → ∃ m, v = .margin m) ∧ (n = b!"padding" → ∃ m, v = .padding m) ∧
      (n = b!"position" → ∃ m, v = .position m) ∧ (n = b!"size" → ∃ m, v = .size m)) : YFine (setPart st n k) := by
  unfold setPart
  cases hc : st.cur with
  | none => exact ⟨st, rfl, h⟩
  | some s =>
    obtain ⟨v, hv, h1, h2, h3, h4⟩ := hk s (h s hc)
    simp only [hv]
    refine ⟨_, rfl, ?_⟩
    intro s' hs'
    obtain rfl := Option.some.inj hs'
    exact partsOk_set (h s hc) n v h1 h2 h3 h4

theorem partsOk_new (s : Style F) (h : s.properties = []) : PartsOk s := by
  refine ⟨?_, ?_, ?_, ?_⟩ <;> (intro v hv; rw [h] at hv; exact nomatch hv)

theorem styleAttr_props (as : List (Bytes × Bytes)) (s : Style F) : (as.foldl styleAttr s).properties = s.properties := by
  induction as generalizing s with
  | nil => rfl
  | cons a as ih =>
    rw [List.foldl_cons, ih]
    unfold styleAttr
    split
    · rfl
    · split <;> rfl

theorem yStart_fine (fl : SFloats F) {st : YSt F} (h : YOk st) (n : Bytes) (as : List (Bytes × Bytes)) : YFine (yStart fl st n as) := by
  unfold yStart
  refine yfine_ite (fun _ => ⟨_, rfl, h⟩) fun _ => ?_
  refine yfine_ite (fun _ => ⟨_, rfl, fun s hs => ?_⟩) fun _ => ?_
  · obtain rfl := Option.some.inj hs
    exact partsOk_new _ (by rw [styleAttr_props])
  refine yfine_ite (fun e => setPart_fine h _ _ fun s hs => ⟨_, rfl, ?_⟩) fun _ => ?_
  · subst e; exact ⟨nofun, nofun, nofun, nofun⟩
  refine yfine_ite (fun e => setPart_fine h _ _ fun s hs => ⟨_, rfl, ?_⟩) fun _ => ?_
  · subst e; exact ⟨nofun, nofun, nofun, nofun⟩
  refine yfine_ite (fun e => setPart_fine h _ _ fun s hs => ?_) fun _ => ?_
  · subst e
    cases hg : Map.get s.properties b!"margin" with
    | none => exact ⟨_, rfl, fun _ => ⟨_, rfl⟩, nofun, nofun, nofun⟩
    | some v => obtain ⟨m, rfl⟩ := hs.1 v hg; exact ⟨_, rfl, fun _ => ⟨_, rfl⟩, nofun, nofun, nofun⟩
  refine yfine_ite (fun e => setPart_fine h _ _ fun s hs => ?_) fun _ => ?_
  · subst e
    cases hg : Map.get s.properties b!"padding" with
    | none => exact ⟨_, rfl, nofun, fun _ => ⟨_, rfl⟩, nofun, nofun⟩
    | some v => obtain ⟨m, rfl⟩ := hs.2.1 v hg; exact ⟨_, rfl, nofun, fun _ => ⟨_, rfl⟩, nofun, nofun⟩
  refine yfine_ite (fun e => setPart_fine h _ _ fun s hs => ?_) fun _ => ?_
  · subst e
    cases hg : Map.get s.properties b!"position" with
    | none => exact ⟨_, rfl, nofun, nofun, fun _ => ⟨_, rfl⟩, nofun⟩
    | some v => obtain ⟨m, rfl⟩ := hs.2.2.1 v hg; exact ⟨_, rfl, nofun, nofun, fun _ => ⟨_, rfl⟩, nofun⟩
  refine yfine_ite (fun e => setPart_fine h _ _ fun s hs => ?_) fun _ => ?_
  · subst e
    cases hg : Map.get s.properties b!"size" with
    | none => exact ⟨_, rfl, nofun, nofun, nofun, fun _ => ⟨_, rfl⟩⟩
    | some v => obtain ⟨m, rfl⟩ := hs.2.2.2 v hg; exact ⟨_, rfl, nofun, nofun, nofun, fun _ => ⟨_, rfl⟩⟩
  refine ⟨_, rfl, ?_⟩
  split
  · exact h
  · exact h

theorem yEnd_ok (fl : SFloats F) {st : YSt F} (h : YOk st) (n : Bytes) : YOk (yEnd fl st n) := by
  unfold yEnd
  split
  · exact fun s hs => nomatch hs
  · split
    · exact h
    · rename_i hn
      intro s hs
      simp only [isPart] at hn
      cases hc : st.cur with
      | none => simp [hc] at hs
      | some s0 =>
        simp only [hc, Option.map_some, Option.some.injEq] at hs
        subst hs
        have h0 := h s0 hc
        split
        · refine partsOk_set h0 _ _ ?_ ?_ ?_ ?_ <;> (intro e; subst e; exact absurd (by decide) hn)
        · exact h0

theorem yStep_fine (fl : SFloats F) {st : YSt F} (h : YOk st) (t : Tok) : YFine (yStep fl st t) := by
  cases t with
  | start n as => exact yStart_fine fl h n as
  | close n => exact ⟨_, rfl, yEnd_ok fl h n⟩
  | chars w =>
    refine ⟨_, rfl, ?_⟩
    split
    · exact h
    · exact h

/-- A step that leaves the state alone when the code would panic. -/
def yPure (fl : SFloats F) (st : YSt F) (t : Tok) : YSt F :=
  match yStep fl st t with
  | .ok st' => st'
  | _ => st

theorem yRun_eq (fl : SFloats F) (toks : List Tok) (st : YSt F) (h : YOk st) : yRun fl toks st = .ok (toks.foldl (yPure fl) st) := by
  induction toks generalizing st with
  | nil => rfl
  | cons t ts ih =>
    obtain ⟨st', h1, h2⟩ := yStep_fine fl h t
    have h3 : yPure fl st t = st' := by simp only [yPure, h1]
    rw [yRun, h1, List.foldl_cons, h3]
    exact ih st' h2

theorem parseStylesheet_eq (fl : SFloats F) (toks : List Tok) : parseStylesheet fl toks = .ok (toks.foldl (yPure fl) {}).set := by
  rw [parseStylesheet, yRun_eq fl toks {} (fun s hs => nomatch hs)]
  rfl

/-! ### Written and read -/

/-- Between the elements of the stylesheet. -/
def YAt (set : List (Style F)) (cur : Option (Style F)) (st : YSt F) : Prop := st.set = set ∧ st.cur = cur

theorem yAt_blank {fl : SFloats F} {set : List (Style F)} {cur : Option (Style F)} (st : YSt F) (w : Bytes) (_ : Blank w) (h : YAt set cur st) :
    YAt set cur (yPure fl st (.chars w)) := by
  show YAt set cur (if _ then _ else _)
  split
  · exact h
  · exact h

/-- A step from a state given by its parts. -/
theorem yAt_step {set : List (Style F)} {cur : Option (Style F)} {Q : YSt F → Prop} {k : YSt F → YSt F}
    (h : ∀ p v, Q (k ⟨set, cur, p, v⟩)) : ∀ st, YAt set cur st → Q (k st) := by
  rintro ⟨set', cur', prop', value'⟩ ⟨h1, h2⟩
  simp only at h1 h2
  subst h1 h2
  exact h _ _

theorem fold_float {fl : SFloats F} {R : Type} {f : R → Bytes × Bytes → R} {k : Bytes} {x : F} {r r' : R} (h : fl.pos x = true → f r (k, fl.format x) = r')
    (h0 : fl.pos x = false → r = r') : (floatAttr fl k x).foldl f r = r' := by
  unfold floatAttr
  split
  · exact h ‹_›
  · rename_i hv; simpa using h0 (by simpa using hv)

/-- The number that is read. -/
theorem float_back {fl : SFloats F} (he : SFloats.Exact fl) {x old : F} (h : fl.pos x = true) : fl.floatOr old (fl.format x) = floatBack fl x := by
  simp [SFloats.floatOr, he x h, floatBack, h]

theorem float_zero {fl : SFloats F} {x : F} (h : fl.pos x = false) : floatBack fl x = fl.zero := by simp [floatBack, h]

theorem font_attrs (fl : SFloats F) (he : SFloats.Exact fl) (f : SFont F) :
    (strAttr b!"family" f.family ++ floatAttr fl b!"size" f.size ++ strAttr b!"weight" f.weight ++ strAttr b!"style" f.style ++
      strAttr b!"color" f.color ++ strAttr b!"decoration" f.decoration).foldl (fontAttr fl) { size := fl.zero } =
      { f with size := floatBack fl f.size } := by
  obtain ⟨a, x, b, c, d, e⟩ := f
  simp only [List.foldl_append]
  rw [fold_str (v := a) (r' := { family := a, size := fl.zero }) rfl (by intro h; rw [h]),
    fold_float (x := x) (r' := { family := a, size := floatBack fl x })
      (by intro h; show ({ family := a, size := fl.floatOr _ _ } : SFont F) = _; rw [float_back he h]) (by intro h; rw [float_zero h]),
    fold_str (v := b) (r' := { family := a, size := floatBack fl x, weight := b }) rfl (by intro h; rw [h]),
    fold_str (v := c) (r' := { family := a, size := floatBack fl x, weight := b, style := c }) rfl (by intro h; rw [h]),
    fold_str (v := d) (r' := { family := a, size := floatBack fl x, weight := b, style := c, color := d }) rfl (by intro h; rw [h]),
    fold_str (v := e) (r' := { family := a, size := floatBack fl x, weight := b, style := c, color := d, decoration := e }) rfl (by intro h; rw [h])]

theorem border_attrs (fl : SFloats F) (he : SFloats.Exact fl) (b : SBorder F) :
    (floatAttr fl b!"width" b.width ++ strAttr b!"style" b.style ++ strAttr b!"color" b.color ++ floatAttr fl b!"radius" b.radius).foldl
      (borderAttr fl) { width := fl.zero, radius := fl.zero } = { b with width := floatBack fl b.width, radius := floatBack fl b.radius } := by
  obtain ⟨w, s, c, r⟩ := b
  simp only [List.foldl_append]
  rw [fold_float (x := w) (k := b!"width") (r' := { width := floatBack fl w, radius := fl.zero })
      (by intro h; show ({ width := fl.floatOr _ _, radius := fl.zero } : SBorder F) = _; rw [float_back he h]) (by intro h; rw [float_zero h]),
    fold_str (v := s) (k := b!"style") (r' := { width := floatBack fl w, style := s, radius := fl.zero }) rfl (by intro h; rw [h]),
    fold_str (v := c) (k := b!"color") (r' := { width := floatBack fl w, style := s, color := c, radius := fl.zero }) rfl (by intro h; rw [h]),
    fold_float (x := r) (k := b!"radius") (r' := { width := floatBack fl w, style := s, color := c, radius := floatBack fl r })
      (by intro h; show ({ width := floatBack fl w, style := s, color := c, radius := fl.floatOr _ _ } : SBorder F) = _; rw [float_back he h])
      (by intro h; rw [float_zero h])]

theorem box_attrs (fl : SFloats F) (he : SFloats.Exact fl) (b : SBox F) :
    (floatAttr fl b!"top" b.top ++ floatAttr fl b!"right" b.right ++ floatAttr fl b!"bottom" b.bottom ++ floatAttr fl b!"left" b.left).foldl
      (boxAttr fl) ⟨fl.zero, fl.zero, fl.zero, fl.zero⟩ =
      ⟨floatBack fl b.top, floatBack fl b.right, floatBack fl b.bottom, floatBack fl b.left⟩ := by
  obtain ⟨t, r, o, l⟩ := b
  simp only [List.foldl_append]
  rw [fold_float (x := t) (k := b!"top") (r' := ⟨floatBack fl t, fl.zero, fl.zero, fl.zero⟩)
      (by intro h; show (⟨fl.floatOr _ _, fl.zero, fl.zero, fl.zero⟩ : SBox F) = _; rw [float_back he h]) (by intro h; rw [float_zero h]),
    fold_float (x := r) (k := b!"right") (r' := ⟨floatBack fl t, floatBack fl r, fl.zero, fl.zero⟩)
      (by intro h; show (⟨floatBack fl t, fl.floatOr _ _, fl.zero, fl.zero⟩ : SBox F) = _; rw [float_back he h]) (by intro h; rw [float_zero h]),
    fold_float (x := o) (k := b!"bottom") (r' := ⟨floatBack fl t, floatBack fl r, floatBack fl o, fl.zero⟩)
      (by intro h; show (⟨floatBack fl t, floatBack fl r, fl.floatOr _ _, fl.zero⟩ : SBox F) = _; rw [float_back he h]) (by intro h; rw [float_zero h]),
    fold_float (x := l) (k := b!"left") (r' := ⟨floatBack fl t, floatBack fl r, floatBack fl o, floatBack fl l⟩)
      (by intro h; show (⟨floatBack fl t, floatBack fl r, floatBack fl o, fl.floatOr _ _⟩ : SBox F) = _; rw [float_back he h]) (by intro h; rw [float_zero h])]

theorem pair_attrs (fl : SFloats F) (he : SFloats.Exact fl) (ka kb : Bytes) (hk : ka ≠ kb) (p : SPair F) :
    (floatAttr fl ka p.a ++ floatAttr fl kb p.b).foldl (pairAttr fl ka kb) ⟨fl.zero, fl.zero⟩ = ⟨floatBack fl p.a, floatBack fl p.b⟩ := by
  obtain ⟨a, b⟩ := p
  simp only [List.foldl_append]
  rw [fold_float (x := a) (k := ka) (r' := ⟨floatBack fl a, fl.zero⟩) (by intro h; simp [pairAttr, float_back he h]) (by intro h; rw [float_zero h]),
    fold_float (x := b) (k := kb) (r' := ⟨floatBack fl a, floatBack fl b⟩) (by intro h; simp [pairAttr, float_back he h, Ne.symm hk])
      (by intro h; rw [float_zero h])]

/-- The style without properties. -/
def headOf (s : Style F) : Style F := { name := s.name, type := s.type }

/-- The style with properties. -/
def withProps (s : Style F) (ps : List (Bytes × SVal F)) : Style F := { name := s.name, type := s.type, properties := ps }

/-- One part: what is written when it is of its type is read as `partBack`. -/
theorem read_part (fl : SFloats F) (set : List (Style F)) (s : Style F) (ps : List (Bytes × SVal F)) (n : Bytes) (as : List (Bytes × Bytes)) (v : SVal F)
    (h : ∀ p u, yPure fl ⟨set, some (withProps s ps), p, u⟩ (.start n as) = ⟨set, some (withProps s (Map.set ps n v)), n, u⟩) (hn : n ∈ styleParts) :
    Reads (yPure fl) (YAt set (some (withProps s ps))) (bare n as) (YAt set (some (withProps s (Map.set ps n v)))) := by
  refine Reads.bare yAt_blank (yAt_step fun p u => ?_)
  rw [h]
  have h1 : n ≠ b!"style" := by rintro rfl; exact absurd hn (by decide)
  have h2 : isPart n = true := by simpa [isPart, styleParts] using hn
  show YAt _ _ (yEnd fl ⟨set, some (withProps s (Map.set ps n v)), n, u⟩ n)
  simp only [yEnd, h1, h2, if_false, if_true]
  exact ⟨rfl, rfl⟩

/-- Further properties. -/
theorem read_value (fl : SFloats F) (set : List (Style F)) (s : Style F) (ps : List (Bytes × SVal F)) (e : Bytes × SVal F)
    (hp : e.1 ∉ styleParts) (h0 : e.1 ≠ []) (h1 : e.1 ≠ b!"style") (h2 : e.1 ≠ b!"stylesheet") :
    Reads (yPure fl) (YAt set (some (withProps s ps))) [.start e.1 [], .chars (fl.print e.2), .close e.1]
      (YAt set (some (withProps s (match valueBack fl e.2 with | some v => Map.set ps e.1 v | none => ps)))) := by
  have hpart : isPart e.1 = false := by simpa [isPart, styleParts] using hp
  simp only [styleParts, List.mem_cons, List.not_mem_nil, or_false, not_or] at hp
  have hs : ∀ p u, yPure fl ⟨set, some (withProps s ps), p, u⟩ (.start e.1 []) = ⟨set, some (withProps s ps), e.1, []⟩ := by
    intro p u
    simp [yPure, yStep, yStart, hp, h1, h2]
  have hc : ∀ t, yPure fl ⟨set, some (withProps s ps), e.1, []⟩ (.chars t) = ⟨set, some (withProps s ps), e.1, t⟩ := by
    intro t
    simp [yPure, yStep, h0]
  refine Reads.text yAt_blank (fun _ => yAt_step (Q := fun st => yPure fl (yPure fl st _) _ = yPure fl st _) (k := id) fun p u => ?_) (yAt_step fun p u => ?_)
  · simp only [id, hs, hc]
  · rw [hs, hc]
    show YAt _ _ (yEnd fl ⟨set, some (withProps s ps), e.1, fl.print e.2⟩ e.1)
    simp only [yEnd, h1, hpart, Bool.false_eq_true, if_false]
    refine ⟨rfl, ?_⟩
    show some (if e.1 ≠ [] ∧ trimSpace (fl.print e.2) ≠ [] then withProps s (Map.set ps e.1 (parseStyleValue fl (trimSpace (fl.print e.2)))) else withProps s ps) = _
    unfold valueBack
    by_cases ht : trimSpace (fl.print e.2) = []
    · simp [ht]
    · rw [if_pos ⟨h0, ht⟩]
      simp only [ht, if_false]
      unfold parseStyleValue
      cases fl.parse (trimSpace (fl.print e.2)) with
      | some x => rfl
      | none =>
        simp only
        split
        · rfl
        · split <;> rfl

/-- Setting what comes back of a list of values. -/
def putValues (fl : SFloats F) (es ps : List (Bytes × SVal F)) : List (Bytes × SVal F) :=
  es.foldl (fun ps e => match valueBack fl e.2 with | some v => Map.set ps e.1 v | none => ps) ps

theorem read_values (fl : SFloats F) (set : List (Style F)) (s : Style F) (es : List (Bytes × SVal F))
    (h : ∀ e ∈ es, e.1 ∉ styleParts ∧ e.1 ≠ [] ∧ e.1 ≠ b!"style" ∧ e.1 ≠ b!"stylesheet") (ps : List (Bytes × SVal F)) :
    Reads (yPure fl) (YAt set (some (withProps s ps))) (es.flatMap fun e => [.start e.1 [], .chars (fl.print e.2), .close e.1])
      (YAt set (some (withProps s (putValues fl es ps)))) := by
  induction es generalizing ps with
  | nil => exact Reads.nil
  | cons e es ih =>
    obtain ⟨g1, g2, g3, g4⟩ := h e (by simp)
    exact Reads.append (read_value fl set s ps e g1 g2 g3 g4) (ih (fun x hx => h x (by simp [hx])) _)

theorem putValues_get (fl : SFloats F) (es ps : List (Bytes × SVal F)) (hn : (es.map (·.1)).Nodup) (hd : ∀ e ∈ es, Map.get ps e.1 = none) (k : Bytes) :
    Map.get (putValues fl es ps) k = ((Map.get es k).bind (valueBack fl)).or (Map.get ps k) := by
  induction es generalizing ps with
  | nil => simp [putValues, Map.get]
  | cons e es ih =>
    obtain ⟨k', v⟩ := e
    have hk : k' ∉ es.map (·.1) := (List.nodup_cons.1 hn).1
    have hs : putValues fl ((k', v) :: es) ps = putValues fl es (match valueBack fl v with | some v => Map.set ps k' v | none => ps) := rfl
    have hd' : ∀ e ∈ es, Map.get (match valueBack fl v with | some v => Map.set ps k' v | none => ps) e.1 = none := by
      intro e he
      have hne : e.1 ≠ k' := fun h => hk (List.mem_map.2 ⟨e, he, h⟩)
      have := hd e (by simp [he])
      cases valueBack fl v with
      | none => exact this
      | some w => simp only [Map.get_set, hne, if_false]; exact this
    rw [hs, ih _ (List.nodup_cons.1 hn).2 hd']
    by_cases e : k = k'
    · subst e
      have h0 : Map.get es k = none := (Map.get_none_iff es k).2 hk
      have h1 : Map.get ((k, v) :: es) k = some v := by simp [Map.get]
      have h2 : Map.get ps k = none := hd (k, v) (by simp)
      rw [h0, h1, h2]
      cases hv : valueBack fl v with
      | none => simp [h2, hv]
      | some w => simp [Map.get_set, hv]
    · have e' : ¬ k' = k := fun h => e h.symm
      have : Map.get ((k', v) :: es) k = Map.get es k := by simp [Map.get, e']
      rw [this]
      congr 1
      cases valueBack fl v with
      | none => rfl
      | some w => simp [Map.get_set, e]

/-- A part is set when it is there. -/
def putPart (fl : SFloats F) (src : List (Bytes × SVal F)) (ps : List (Bytes × SVal F)) (n : Bytes) : List (Bytes × SVal F) :=
  match (Map.get src n).bind (partBack fl n) with
  | some v => Map.set ps n v
  | none => ps

theorem putPart_get (fl : SFloats F) (src ps : List (Bytes × SVal F)) (n k : Bytes) (h : Map.get ps n = none) :
    Map.get (putPart fl src ps n) k = if k = n then (Map.get src n).bind (partBack fl n) else Map.get ps k := by
  unfold putPart
  cases (Map.get src n).bind (partBack fl n) with
  | none =>
    simp only
    split
    · rename_i e; rw [e, h]
    · rfl
  | some v => rw [Map.get_set]

theorem style_attrs (s : Style F) : (strAttr b!"name" s.name ++ strAttr b!"type" s.type).foldl styleAttr {} = (withProps s [] : Style F) := by
  simp only [List.foldl_append]
  rw [fold_str (v := s.name) (r' := ({ name := s.name } : Style F)) rfl (by intro h; rw [h]),
    fold_str (v := s.type) (r' := ({ name := s.name, type := s.type } : Style F)) rfl (by intro h; rw [h])]
  rfl

/-- The properties that are read. -/
def propsRead (fl : SFloats F) (s : Style F) : List (Bytes × SVal F) :=
  putValues fl (s.properties.filter fun e => !isPart e.1) (styleParts.foldl (putPart fl s.properties) [])

theorem Reads.same {S : Type} {step : S → Tok → S} {P : S → Prop} {enc : List Tok} (h : enc = []) : Reads step P enc P := by subst h; exact Reads.nil

theorem read_style (fl : SFloats F) (he : SFloats.Exact fl) (set : List (Style F)) (s : Style F) (hs : StyleNames s) (h0 : [] ∉ s.properties.map (·.1)) :
    Reads (yPure fl) (YAt set none) (encStyle fl s) (YAt (set ++ [withProps s (propsRead fl s)]) none) := by
  unfold encStyle
  refine Reads.append (Q := YAt set (some (withProps s (propsRead fl s)))) ?_ (Reads.close yAt_blank (yAt_step fun p u => ⟨rfl, rfl⟩))
  refine Reads.append (Q := YAt set (some (withProps s (styleParts.foldl (putPart fl s.properties) [])))) ?_ (read_values fl set s _ ?_ _)
  · let p1 := putPart fl s.properties [] b!"font"
    let p2 := putPart fl s.properties p1 b!"border"
    let p3 := putPart fl s.properties p2 b!"margin"
    let p4 := putPart fl s.properties p3 b!"padding"
    let p5 := putPart fl s.properties p4 b!"position"
    have g3 : Map.get p2 b!"margin" = none := by
      simp only [p2, p1]
      rw [putPart_get _ _ _ _ _ (by rw [putPart_get _ _ _ _ _ rfl]; rfl), if_neg (by decide), putPart_get _ _ _ _ _ rfl, if_neg (by decide)]; rfl
    have g3' : ∀ k, k ≠ b!"font" → k ≠ b!"border" → Map.get p2 k = none := by
      intro k h1 h2
      simp only [p2, p1]
      rw [putPart_get _ _ _ _ _ (by rw [putPart_get _ _ _ _ _ rfl]; rfl), if_neg h2, putPart_get _ _ _ _ _ rfl, if_neg h1]; rfl
    have g4' : ∀ k, k ≠ b!"font" → k ≠ b!"border" → k ≠ b!"margin" → Map.get p3 k = none := by
      intro k h1 h2 h3
      simp only [p3]
      rw [putPart_get _ _ _ _ _ g3, if_neg h3, g3' k h1 h2]
    have g5' : ∀ k, k ≠ b!"font" → k ≠ b!"border" → k ≠ b!"margin" → k ≠ b!"padding" → Map.get p4 k = none := by
      intro k h1 h2 h3 h4
      simp only [p4]
      rw [putPart_get _ _ _ _ _ (g4' _ (by decide) (by decide) (by decide)), if_neg h4, g4' k h1 h2 h3]
    have g6' : Map.get p5 b!"size" = none := by
      simp only [p5]
      rw [putPart_get _ _ _ _ _ (g5' _ (by decide) (by decide) (by decide) (by decide)), if_neg (by decide),
        g5' _ (by decide) (by decide) (by decide) (by decide)]
    refine Reads.append (Q := YAt set (some (withProps s p5))) ?_ ?_
    · refine Reads.append (Q := YAt set (some (withProps s p4))) ?_ ?_
      · refine Reads.append (Q := YAt set (some (withProps s p3))) ?_ ?_
        · refine Reads.append (Q := YAt set (some (withProps s p2))) ?_ ?_
          · refine Reads.append (Q := YAt set (some (withProps s p1))) ?_ ?_
            · refine Reads.append (Q := YAt set (some (withProps s []))) ?_ ?_
              · refine Reads.start yAt_blank (yAt_step fun p u => ⟨rfl, ?_⟩)
                show some (List.foldl styleAttr {} _) = _
                rw [style_attrs]
              · simp only [p1]
                unfold putPart
                rcases hg : Map.get s.properties b!"font" with _ | (v | v | v | v | v | v | v | v | v | v) <;>
                  first | exact Reads.same rfl | skip
                refine read_part fl set s [] b!"font" _ _ (fun p u => ?_) (by decide)
                show YSt.mk set (some (withProps s (Map.set [] b!"font" (.font (List.foldl (fontAttr fl) { size := fl.zero } _))))) b!"font" u = _
                rw [font_attrs fl he]
            · simp only [p2]
              unfold putPart
              rcases hg : Map.get s.properties b!"border" with _ | (v | v | v | v | v | v | v | v | v | v) <;>
                first | exact Reads.same rfl | skip
              refine read_part fl set s p1 b!"border" _ _ (fun p u => ?_) (by decide)
              show YSt.mk set (some (withProps s (Map.set p1 b!"border" (.border (List.foldl (borderAttr fl) { width := fl.zero, radius := fl.zero } _))))) b!"border" u = _
              rw [border_attrs fl he]
          · simp only [p3]
            unfold putPart
            rcases hg : Map.get s.properties b!"margin" with _ | (v | v | v | v | v | v | v | v | v | v) <;>
              first | exact Reads.same rfl | skip
            refine read_part fl set s p2 b!"margin" _ _ (fun p u => ?_) (by decide)
            simp [yPure, yStep, yStart, setPart, withProps, g3, Res.bind]
            exact congrArg (fun x => Map.set p2 b!"margin" (SVal.margin x)) (by simpa using box_attrs fl he v)
        · simp only [p4]
          unfold putPart
          rcases hg : Map.get s.properties b!"padding" with _ | (v | v | v | v | v | v | v | v | v | v) <;>
            first | exact Reads.same rfl | skip
          refine read_part fl set s p3 b!"padding" _ _ (fun p u => ?_) (by decide)
          simp [yPure, yStep, yStart, setPart, withProps, g4' b!"padding" (by decide) (by decide) (by decide), Res.bind]
          exact congrArg (fun x => Map.set p3 b!"padding" (SVal.padding x)) (by simpa using box_attrs fl he v)
      · simp only [p5]
        unfold putPart
        rcases hg : Map.get s.properties b!"position" with _ | (v | v | v | v | v | v | v | v | v | v) <;>
          first | exact Reads.same rfl | skip
        refine read_part fl set s p4 b!"position" _ _ (fun p u => ?_) (by decide)
        simp [yPure, yStep, yStart, setPart, withProps, g5' b!"position" (by decide) (by decide) (by decide) (by decide), Res.bind]
        exact congrArg (fun x => Map.set p4 b!"position" (SVal.position x)) (by simpa using pair_attrs fl he b!"x" b!"y" (by decide) v)
    · show Reads _ _ _ (YAt set (some (withProps s (putPart fl s.properties p5 b!"size"))))
      dsimp only
      unfold putPart
      rcases hg : Map.get s.properties b!"size" with _ | (v | v | v | v | v | v | v | v | v | v) <;>
        first | exact Reads.same rfl | skip
      refine read_part fl set s p5 b!"size" _ _ (fun p u => ?_) (by decide)
      simp [yPure, yStep, yStart, setPart, withProps, g6', Res.bind]
      exact congrArg (fun x => Map.set p5 b!"size" (SVal.size x)) (by simpa using pair_attrs fl he b!"width" b!"height" (by decide) v)
  · intro e he'
    obtain ⟨hm, hp⟩ := List.mem_filter.1 he'
    refine ⟨?_, ?_, (hs.2 e hm).1, (hs.2 e hm).2⟩
    · simpa [isPart, styleParts] using hp
    · rintro h; exact h0 (List.mem_map.2 ⟨e, hm, h⟩)

theorem propsRead_get (fl : SFloats F) (s : Style F) (hs : StyleNames s) (k : Bytes) : Map.get (propsRead fl s) k = propBack fl s.properties k := by
  have hparts : ∀ (ns : List Bytes) (ps : List (Bytes × SVal F)), ns.Nodup → (∀ n ∈ ns, Map.get ps n = none) →
      Map.get (ns.foldl (putPart fl s.properties) ps) k = if k ∈ ns then (Map.get s.properties k).bind (partBack fl k) else Map.get ps k := by
    intro ns
    induction ns with
    | nil => intro ps _ _; simp
    | cons n ns ih =>
      intro ps hn hd
      obtain ⟨hn1, hn2⟩ := List.nodup_cons.1 hn
      rw [List.foldl_cons, ih _ hn2 (fun m hm => by
        rw [putPart_get _ _ _ _ _ (hd n (by simp)), if_neg (by rintro rfl; exact hn1 hm)]
        exact hd m (by simp [hm])), putPart_get _ _ _ _ _ (hd n (by simp))]
      by_cases e : k = n
      · subst e; simp [hn1]
      · simp [e]
  have hfilter : ∀ k, Map.get (s.properties.filter fun e => !isPart e.1) k = if k ∈ styleParts then none else Map.get s.properties k := by
    intro k
    have hk : isPart k = decide (k ∈ styleParts) := by simp [isPart, styleParts]
    generalize s.properties = ps
    induction ps with
    | nil => simp [Map.get]
    | cons e ps ih =>
      by_cases hk1 : e.1 = k
      · subst hk1
        by_cases hk2 : e.1 ∈ styleParts
        · rw [List.filter_cons_of_neg (by simp [hk, hk2]), ih]
          simp [hk2]
        · rw [List.filter_cons_of_pos (by simp [hk, hk2])]
          simp [Map.get, hk2]
      · have h1 : Map.get (e :: ps) k = Map.get ps k := by simp [Map.get, hk1]
        rw [h1, ← ih, List.filter_cons]
        split
        · simp [Map.get, hk1]
        · rfl
  unfold propsRead
  rw [putValues_get fl _ _ (List.Nodup.sublist (List.Sublist.map _ List.filter_sublist) hs.1) ?_]
  · rw [hfilter, hparts styleParts [] (by decide) (fun n _ => rfl), propBack]
    by_cases e : k ∈ styleParts
    · simp [e]
    · simp [e, Map.get]
  · intro e he
    obtain ⟨hm, hp⟩ := List.mem_filter.1 he
    have hne : e.1 ∉ styleParts := by simpa [isPart, styleParts] using hp
    have hparts' : ∀ (ns : List Bytes) (ps : List (Bytes × SVal F)), e.1 ∉ ns → Map.get ps e.1 = none →
        Map.get (ns.foldl (putPart fl s.properties) ps) e.1 = none := by
      intro ns
      induction ns with
      | nil => intro ps _ h; exact h
      | cons n ns ih =>
        intro ps hn h
        simp only [List.mem_cons, not_or] at hn
        refine ih _ hn.2 ?_
        unfold putPart
        split
        · rw [Map.get_set, if_neg hn.1]; exact h
        · exact h
    exact hparts' styleParts [] hne rfl

theorem read_stylesheet (fl : SFloats F) (he : SFloats.Exact fl) (ss : List (Style F)) (hs : ∀ s ∈ ss, StyleNames s) {enc dec : List Tok}
    (hw : stylesheetToXFA fl ss = some enc) (hd : Decoded enc dec) :
    parseStylesheet fl dec = .ok (ss.map fun s => withProps s (propsRead fl s)) := by
  unfold stylesheetToXFA at hw
  split at hw
  · exact nomatch hw
  rename_i h0
  obtain rfl := Option.some.inj hw
  have hl : ∀ (l : List (Style F)), (∀ s ∈ l, StyleNames s ∧ [] ∉ s.properties.map (·.1)) → ∀ set,
      Reads (yPure fl) (YAt set none) (l.flatMap (encStyle fl)) (YAt (set ++ l.map fun s => withProps s (propsRead fl s)) none) := by
    intro l
    induction l with
    | nil => intro _ set; simpa using Reads.nil
    | cons s l ih =>
      intro h set
      rw [List.flatMap_cons]
      have h1 := h s (by simp)
      have := (read_style fl he set s h1.1 h1.2).append (ih (fun x hx => h x (by simp [hx])) _)
      simpa using this
  have hr : Reads (yPure fl) (YAt [] none) ([.start b!"stylesheet" []] ++ ss.flatMap (encStyle fl) ++ [.close b!"stylesheet"])
      (YAt ([] ++ ss.map fun s => withProps s (propsRead fl s)) none) := by
    refine Reads.append (Reads.append ?_ (hl ss (fun s hm => ⟨hs s hm, fun hn => h0 (List.mem_flatMap.2 ⟨s, hm, hn⟩)⟩) []))
      (Reads.close yAt_blank (yAt_step fun p u => ⟨rfl, rfl⟩))
    exact Reads.start yAt_blank (yAt_step fun p u => ⟨rfl, rfl⟩)
  have := (hr false dec {} hd ⟨rfl, rfl⟩).1
  rw [parseStylesheet_eq, this, List.nil_append]

end Pdfer.XFASets
