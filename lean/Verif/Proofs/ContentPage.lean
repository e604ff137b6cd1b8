import Verif.Proofs.Content

/-! What the reader finds against what the page shows. -/

namespace Pdfer.Content

open Pdfer.Go Pdfer.Enc Pdfer.Spec Pdfer.Spec.Content Pdfer.Strings

variable {F : Type}

theorem latin_pairs : ∀ (t data : Bytes), t.length % 2 = 0 → Spec.Enc.pairUp t = some data →
    (chunks2 t).flatMap latinPair = data.flatMap fun b => writeRuneI b.toNat := by
  intro t
  fun_induction Spec.Enc.pairUp t with
  | case1 => intro data _ h; simp only [Option.some.injEq] at h; subst h; rfl
  | case2 a => intro data h; simp at h
  | case3 a b r ih =>
    intro data he h
    rw [hexDigit_eq, hexDigit_eq] at h
    cases hx : hexDig a with
    | none => rw [hx] at h; simp at h
    | some x =>
      cases hy : hexDig b with
      | none => rw [hx, hy] at h; simp at h
      | some y =>
        cases hr : Spec.Enc.pairUp r with
        | none => rw [hx, hy, hr] at h; simp at h
        | some t =>
          rw [hx, hy, hr] at h
          simp only [Option.bind_some, Option.map_some, Option.some.injEq] at h
          subst h
          rw [chunks2, List.flatMap_cons, latinPair, parse2 hx hy, List.flatMap_cons, ih t (by simp only [List.length_cons] at he; omega) hr]

theorem hexLatin1_eq {h data : Bytes} (hd : Spec.Enc.hexBytes h = some data) (hw : ∀ c ∈ h, Spec.Enc.white c = true → c = 32) :
    hexLatin1 h = Spec.Enc.utf8 (data.map fun b => (b.toNat : Int)) := by
  have e4 : h.filter (fun c => decide (c ≠ 32 ∧ c ≠ 10 ∧ c ≠ 13)) = h.filter fun c => !Spec.Enc.white c := by
    apply List.filter_congr
    intro c hc
    by_cases hwc : Spec.Enc.white c = true
    · rw [hw c hc hwc]; decide
    · have : Spec.Enc.white c = false := by simpa using hwc
      rw [this]
      simp only [Spec.Enc.white, Bool.or_eq_false_iff, beq_eq_false_iff_ne] at this
      simp only [Bool.not_false, decide_eq_true_eq]
      exact ⟨this.2, this.1.1.1.2, this.1.2⟩
  unfold hexLatin1
  simp only [e4]
  have hp : Spec.Enc.pairUp (if (h.filter fun c => !Spec.Enc.white c).length % 2 ≠ 0 then (h.filter fun c => !Spec.Enc.white c) ++ b!"0"
      else h.filter fun c => !Spec.Enc.white c) = some data := by rw [pairUp_pad]; exact hd
  rw [latin_pairs _ data ?_ hp, ← flatMap_write, List.flatMap_map]
  split
  · rw [List.length_append]; simp only [List.length_singleton]; omega
  · omega

/-- The induction over the calls: a relation that every call keeps. -/
theorem fold_rel {A : Arith F} {fonts : Option (Map Bytes Decoder)} {fl : Floats F} {P : Page F → Call F → List (Call F) → Prop}
    {R : State F → Page F → List (Call F) → Prop}
    (step : ∀ st p c cs, CallOK c → P p c cs → R st p (c :: cs) → R (sem fl A.val fonts st c) (exec A fonts p c) cs) :
    ∀ (cs : List (Call F)) (st : State F) (p : Page F), (∀ c ∈ cs, CallOK c) → Always A fonts P p cs → R st p cs →
      R (cs.foldl (sem fl A.val fonts) st) (cs.foldl (exec A fonts) p) [] := by
  intro cs
  induction cs with
  | nil => intro st p _ _ h; exact h
  | cons c cs ih =>
    intro st p hc ha h
    exact ih _ _ (fun c h => hc c (by simp [h])) ha.2 (step st p c cs (hc c (by simp)) ha.1 h)

/-- The relation for the texts. -/
structure RText (fonts : Option (Map Bytes Decoder)) (st : State F) (p : Page F) : Prop where
  par : (⟨st.t.font, st.t.size, st.t.charSp, st.t.wordSp, st.t.rise⟩ : TextPar F) = p.gs.text
  dec : st.t.decoder = fontOf fonts p
  texts : st.texts.map elemWhat = p.shown.map shownWhat

theorem RText.show {A : Arith F} {fonts : Option (Map Bytes Decoder)} {st : State F} {p : Page F} (h : RText fonts st p) {a b : Bytes} (e : a = b) :
    RText fonts (st.show a) (p.show A b) := by
  subst e
  refine ⟨h.par, h.dec, ?_⟩
  simp only [State.show, Page.show, List.map_append, h.texts, List.map_cons, List.map_nil, element, elemWhat, shownWhat, h.par]

theorem decodeLit_eq {fonts : Option (Map Bytes Decoder)} {st : State F} {p : Page F} (h : RText fonts st p) (s : Bytes) :
    decodeLit st.t.decoder s = readLit fonts p s := by
  unfold decodeLit readLit
  rw [h.dec]
  cases fontOf fonts p <;> rfl

theorem step_text {A : Arith F} {fonts : Option (Map Bytes Decoder)} {fl : Floats F} (st : State F) (p : Page F) (c : Call F)
    (cs : List (Call F)) (hc : CallOK c) (hk : KeepsText p c cs) (h : RText fonts st p) :
    RText fonts (sem fl A.val fonts st c) (exec A fonts p c) := by
  have hp := h.par
  have hd := h.dec
  cases c
  case restoreState =>
    have hk := hk rfl
    have e1 : RText fonts (sem fl A.val fonts st .restoreState) p := by
      obtain ⟨t, lw, fi, sk, ctm, stack, te, g, im⟩ := st
      cases stack with
      | nil => exact h
      | cons => exact ⟨hp, hd, h.texts⟩
    generalize sem fl A.val fonts st .restoreState = st' at e1 ⊢
    simp only [exec]
    cases hs : p.stack with
    | nil => exact e1
    | cons g gs =>
      have hg : g.text = p.gs.text := hk g (by rw [hs]; rfl)
      exact ⟨by rw [e1.par]; exact hg.symm, by rw [e1.dec]; unfold fontOf; simp only [hg], e1.texts⟩
  case setFont n x =>
    obtain ⟨w, hw, -⟩ := name_chars hc
    refine ⟨?_, ?_, h.texts⟩
    · simp only [sem, exec, Page.setText, ← hp]
    · simp only [sem, exec, fontOf, Page.setText, hw]
      cases fonts with
      | none =>
        simp only [hd, fontOf]
        simp
      | some m => simp
  case showText s => exact h.show (decodeLit_eq h s)
  case showTextNextLine s =>
    have h' : RText fonts st (p.move A A.zero (A.sub A.zero p.gs.leading)) := ⟨h.par, h.dec, h.texts⟩
    have h2 := h'.show (A := A) (decodeLit_eq h s)
    exact ⟨h2.par, h2.dec, h2.texts⟩
  case showTextArray ps =>
    refine h.show ?_
    congr 1
    funext q
    cases q with
    | text s => exact decodeLit_eq h s
    | int n => rfl
    | float x => rfl
  case showTextHex x =>
    refine h.show ?_
    unfold decodeHexText readHex
    rw [hd]
    cases fontOf fonts p with
    | none =>
      obtain ⟨data, hx⟩ := Option.isSome_iff_exists.1 hc.1
      simp only [hx, Option.getD_some]
      exact hexLatin1_eq hx hc.2
    | some d => rfl
  case charSpacing s => exact ⟨by simp only [sem, exec, Page.setText, ← hp], hd, h.texts⟩
  case wordSpacing s => exact ⟨by simp only [sem, exec, Page.setText, ← hp], hd, h.texts⟩
  case rise s => exact ⟨by simp only [sem, exec, Page.setText, ← hp], hd, h.texts⟩
  all_goals exact ⟨hp, hd, h.texts⟩

/-! ### Positions -/

/-- The relation for the positions: the line starts where the reader thinks, or a text matrix follows at once. -/
structure RPos (A : Arith F) (st : State F) (p : Page F) (cs : List (Call F)) : Prop where
  pos : p.tlm = A.shift st.t.x st.t.y ∨ (∃ a b x d e f, cs.head? = some (.textMatrix a b x d e f))
  shown : st.texts.map (fun e => (e.x, e.y)) = p.shown.map (fun s => (s.x, s.y))

theorem step_pos {A : Arith F} (hA : A.Laws) {fonts : Option (Map Bytes Decoder)} {fl : Floats F} (hz : fl.zero = A.zero) (hadd : fl.add = A.add)
    (st : State F) (p : Page F) (c : Call F) (cs : List (Call F)) (hk : PlainMoves A p c cs) (h : RPos A st p (c :: cs)) :
    RPos A (sem fl A.val fonts st c) (exec A fonts p c) cs := by
  obtain ⟨k1, k2, k3, k4, k5⟩ := hk
  have hshow : ∀ a b, (∀ a b x d e f, c ≠ .textMatrix a b x d e f) → RPos A (st.show a) (p.show A b) cs := by
    intro a b hn
    rcases h.pos with h1 | ⟨a', b', x, d, e, f, h1⟩
    · refine ⟨.inl h1, ?_⟩
      simp only [State.show, Page.show, List.map_append, h.shown, List.map_cons, List.map_nil, element, h1]
      rfl
    · simp only [List.head?_cons, Option.some.injEq] at h1
      exact absurd h1 (hn _ _ _ _ _ _)
  have hrest : ∀ (st' : State F) (p' : Page F), st'.t.x = st.t.x → st'.t.y = st.t.y → st'.texts = st.texts → p'.tlm = p.tlm → p'.shown = p.shown →
      (∀ a b x d e f, c ≠ .textMatrix a b x d e f) → RPos A st' p' cs := by
    intro st' p' e1 e2 e3 e4 e5 hn
    rcases h.pos with h1 | ⟨a', b', x, d, e, f, h1⟩
    · exact ⟨.inl (by rw [e4, h1, e1, e2]), by rw [e3, e5]; exact h.shown⟩
    · simp only [List.head?_cons, Option.some.injEq] at h1
      exact absurd h1 (hn _ _ _ _ _ _)
  cases c
  case textMatrix a b x d e f =>
    have := k4 a b x d e f rfl
    simp only [List.cons.injEq, and_true] at this
    obtain ⟨ha, hb, hx, hd⟩ := this
    refine ⟨.inl ?_, h.shown⟩
    simp only [sem, exec, Arith.shift, ha, hb, hx, hd]
  case beginText =>
    rcases k5 rfl with h1 | h1
    · have hpos : p.tlm = A.shift st.t.x st.t.y := by
        rcases h.pos with h2 | ⟨_, _, _, _, _, _, h2⟩
        · exact h2
        · simp at h2
      refine ⟨.inl ?_, h.shown⟩
      show A.unit = _
      rw [← h1, hpos]; rfl
    · exact ⟨.inr h1, h.shown⟩
  case textPosition x y =>
    have hpos : p.tlm = A.shift st.t.x st.t.y := by
      rcases h.pos with h2 | ⟨_, _, _, _, _, _, h2⟩
      · exact h2
      · simp at h2
    refine ⟨.inl ?_, h.shown⟩
    simp only [sem, exec, Page.move, hpos, hA.shift, hadd]
  case moveTextPosition x y => exact absurd rfl (k1 x y)
  case nextLine => exact absurd rfl k2
  case showTextNextLine s => exact absurd rfl (k3 s)
  case showText s => exact hshow _ _ (by simp)
  case showTextArray ps => exact hshow _ _ (by simp)
  case showTextHex x => exact hshow _ _ (by simp)
  case restoreState =>
    apply hrest _ _ _ _ _ _ _ (by simp)
    all_goals
      simp only [sem, exec]
      first
        | (cases st.stack <;> rfl)
        | (cases p.stack <;> rfl)
  all_goals exact hrest _ _ rfl rfl rfl rfl rfl (by simp)

/-! ### Shapes -/

structure RPaint (st : State F) (p : Page F) : Prop where
  paint : (⟨st.fill, st.stroke, st.lineWidth⟩ : Paint F) = p.gs.paint
  shapes : st.graphics.map shapeOf = p.shapes

theorem step_paint {A : Arith F} {fonts : Option (Map Bytes Decoder)} {fl : Floats F} (hadd : fl.add = A.add) (st : State F) (p : Page F)
    (c : Call F) (cs : List (Call F)) (hk : KeepsPaint p c cs) (h : RPaint st p) : RPaint (sem fl A.val fonts st c) (exec A fonts p c) := by
  obtain ⟨k1, k2, k3⟩ := hk
  have hp := h.paint
  cases c
  case fillGray g => exact absurd rfl (k2 g)
  case strokeGray g => exact absurd rfl (k3 g)
  case fillRGB r g b => exact ⟨by simp only [sem, exec, Page.setPaint, ← hp], h.shapes⟩
  case strokeRGB r g b => exact ⟨by simp only [sem, exec, Page.setPaint, ← hp], h.shapes⟩
  case lineWidth w => exact ⟨by simp only [sem, exec, Page.setPaint, ← hp], h.shapes⟩
  case rectangle x y w hh =>
    exact ⟨hp, by simp only [sem, exec, List.map_append, h.shapes, List.map_cons, List.map_nil, shapeOf, hp, hadd]⟩
  case lineTo x y =>
    exact ⟨hp, by simp only [sem, exec, List.map_append, h.shapes, List.map_cons, List.map_nil, shapeOf, ← hp]⟩
  case restoreState =>
    have k1 := k1 rfl
    have e1 : RPaint (sem fl A.val fonts st .restoreState) p := by
      obtain ⟨t, lw, fi, sk, ctm, stack, te, g, im⟩ := st
      cases stack with
      | nil => exact h
      | cons => exact ⟨hp, h.shapes⟩
    generalize sem fl A.val fonts st .restoreState = st' at e1 ⊢
    simp only [exec]
    cases hs : p.stack with
    | nil => exact e1
    | cons g gs =>
      have hg : g.paint = p.gs.paint := k1 g (by rw [hs]; rfl)
      exact ⟨by rw [e1.paint]; exact hg.symm, e1.shapes⟩
  all_goals exact ⟨hp, h.shapes⟩

/-! ### Images -/

structure RImage (st : State F) (p : Page F) : Prop where
  ctm : st.ctm = p.gs.ctm
  stack : st.stack = p.stack.map GState.ctm
  images : st.images.map (fun i => (i.id, i.transform)) = p.images

theorem step_image {A : Arith F} (hA : A.Laws) {fonts : Option (Map Bytes Decoder)} {fl : Floats F} (st : State F) (p : Page F)
    (c : Call F) (cs : List (Call F)) (hk : SetsOnce A p c cs) (h : RImage st p) : RImage (sem fl A.val fonts st c) (exec A fonts p c) := by
  cases c
  case saveState => exact ⟨h.ctm, by simp only [sem, exec, h.ctm, h.stack, List.map_cons], h.images⟩
  case restoreState =>
    simp only [sem, exec, h.stack]
    cases hs : p.stack with
    | nil => exact h
    | cons g gs => exact ⟨rfl, rfl, h.images⟩
  case setMatrix a b x d e f =>
    refine ⟨?_, h.stack, h.images⟩
    simp only [sem, exec, hk a b x d e f rfl]
    exact (hA.unit _ rfl).symm
  case drawImage n => exact ⟨h.ctm, h.stack, by simp only [sem, exec, List.map_append, h.images, List.map_cons, List.map_nil, h.ctm]⟩
  all_goals exact ⟨h.ctm, h.stack, h.images⟩

end Pdfer.Content
