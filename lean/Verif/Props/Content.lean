import Verif.Proofs.ContentPage

/-! Properties C76–C79: what is extracted from a content stream (content/extract/content_stream.go) is what the calls that built it
(core/write/content.go) show on the page. -/

namespace Pdfer.Props

open Pdfer.Go Pdfer.Enc Pdfer.Spec Pdfer.Spec.Content Pdfer.Content

variable {F : Type}

theorem format_fmt {A : Arith F} {fl : Floats F} {fmt : F → Bytes} (h : FormatOK A fl fmt) : Fmt fl A.val fmt := by
  refine ⟨fun x => ⟨(h.2.2.2 x).1, fun c hc => ?_⟩, fun x => (h.2.2.2 x).2.2⟩
  have := (h.2.2.2 x).2.1 c hc
  simp only [isNumC, isDigit, Bool.or_eq_true, Bool.and_eq_true, decide_eq_true_eq, beq_iff_eq]
  tauto

/-! ### The instance -/

theorem fix_format : FormatOK fixArith fixFloats fixFmt := by
  refine ⟨rfl, rfl, rfl, fun x => ⟨?_, ?_, ?_⟩⟩
  · simp [fixFmt]
  · intro c hc
    have hdig : ∀ c, isDigit c = true → 48 ≤ c ∧ c ≤ 57 := by
      intro c h; simpa [isDigit] using h
    simp only [fixFmt, List.mem_append] at hc
    rcases hc with ((h | h) | h) | h
    · split at h
      · simp only [List.mem_singleton] at h; exact .inr (.inr h)
      · simp at h
    · exact .inl (hdig c (natDec_digits _ c h))
    · simp only [List.mem_singleton] at h; exact .inr (.inl h)
    · exact .inl (hdig c (padDec_digits _ _ c h))
  · have hf : ∀ bs : Bytes, (∀ c ∈ bs, isDigit c = true) → bs.filter (fun c => decide (c ≠ 46)) = bs := by
      intro bs h
      rw [List.filter_eq_self]
      intro c hc
      have := h c hc
      simp only [decide_eq_true_eq]
      rintro rfl
      exact absurd this (by decide)
    have hk : ∀ (bs : Bytes) (v : Nat), bs.foldl (fun v c => 10 * v + (c.toNat - 48)) v = v * 10 ^ bs.length + digitsVal bs := by
      intro bs
      induction bs with
      | nil => intro v; simp [digitsVal]
      | cons b bs ih =>
        intro v
        have e := ih (10 * v + (b.toNat - 48))
        have e0 := ih (10 * 0 + (b.toNat - 48))
        simp only [digitsVal, List.foldl_cons, List.length_cons, Nat.pow_succ] at e e0 ⊢
        rw [e, e0]
        rw [Nat.add_mul, Nat.add_mul, Nat.mul_comm 10 v, Nat.mul_assoc v, Nat.mul_comm (10 ^ _) 10]
        omega
    have hv : ∀ n : Nat, digitsVal (natDec (n / 10000) ++ padDec 4 (n % 10000)) = n := by
      intro n
      rw [digitsVal_append, hk, digitsVal_natDec, digitsVal_padDec, padDec_length 4 _ (by omega) (by omega)]
      omega
    show fixParse (fixFmt x) = some x
    by_cases hx : x < 0
    · simp only [fixFmt, fixParse, hx, if_true, List.filter_append, hf _ (natDec_digits _), hf _ (padDec_digits _ _)]
      show some (-(digitsVal (natDec _ ++ [] ++ padDec _ _) : Int)) = _
      rw [List.append_nil, hv]
      congr 1; omega
    · simp only [fixFmt, fixParse, hx, if_false, List.filter_append, hf _ (natDec_digits _), hf _ (padDec_digits _ _), List.filter_nil, List.nil_append]
      have e : natDec (x.natAbs / 10000) ++ List.filter (fun c => decide (c ≠ 46)) b!"." ++ padDec 4 (x.natAbs % 10000)
          = natDec (x.natAbs / 10000) ++ padDec 4 (x.natAbs % 10000) := by
        rw [show List.filter (fun c => decide (c ≠ 46)) b!"." = [] from rfl, List.append_nil]
      rw [e]
      have h1 := hv x.natAbs
      split
      · rename_i r hr
        have : (45 : UInt8) ∈ natDec (x.natAbs / 10000) ++ padDec 4 (x.natAbs % 10000) := by rw [hr]; simp
        rcases List.mem_append.1 this with h | h
        · exact absurd (natDec_digits _ _ h) (by decide)
        · exact absurd (padDec_digits _ _ _ h) (by decide)
      · rw [h1]; congr 1; omega

theorem fix_laws : fixArith.Laws := by
  constructor
  · intro m hm
    match m, hm with
    | [a, b, c, d, e, f], _ =>
      simp only [fixArith, Arith.unit, fixMul, List.getD_cons_zero, List.getD_cons_succ, List.cons.injEq, and_true]
      refine ⟨?_, ?_, ?_, ?_, ?_, ?_⟩ <;> omega
  · intro x y e f
    simp only [fixArith, Arith.shift, fixMul, List.getD_cons_zero, List.getD_cons_succ, List.cons.injEq, and_true]
    refine ⟨?_, ?_, ?_, ?_, ?_, ?_⟩ <;> omega

/-- What is read from the stream of the calls, with numbers of ten-thousandths. -/
def readBack (cs : List (Call Int)) : State Int := parseContent fixFloats none (renderAll fixFmt cs)

/-- What the calls show. -/
def page (cs : List (Call Int)) : Page Int := pageOf fixArith none cs

/-- A page with text in two fonts, a rectangle and an image. -/
def sampleCalls : List (Call Int) :=
  [.saveState, .fillRGB 10000 0 5000, .rectangle 720000 720000 1000000 500000, .fill,
   .fillRGB 0 0 0, .restoreState,
   .beginText, .setFont b!"/F1" 120000, .charSpacing 2500, .textPosition 720000 7000000, .showText b!"Total (net",
   .textPosition 0 (-144000), .setFont b!"/F_2" 95000, .showTextArray [.text b!"Gro", .int (-120), .text b!"\\(ss)", .float 12500], .endText,
   .saveState, .setMatrix 2000000 0 0 1000000 500000 600000, .drawImage b!"/Im1", .restoreState, .lineWidth 20000,
   .moveTo 0 0, .lineTo 100000 0, .stroke, .showTextHex b!"48 69"]

/-- No backslash followed by n, r or t. -/
def noEsc : Bytes → Bool
  | 92 :: x :: v => (x != 110 && x != 114 && x != 116) && noEsc (x :: v)
  | _ :: v => noEsc v
  | [] => true

theorem textOK_of (t : List Char) (h : noEsc (utf8 t) = true) : TextOK (utf8 t) := by
  refine ⟨⟨t, rfl⟩, ?_⟩
  intro u x v e
  rw [e] at h
  clear e
  induction u with
  | nil =>
    rw [List.nil_append, noEsc] at h
    simp only [Bool.and_eq_true, bne_iff_ne] at h
    exact ⟨h.1.1.1, h.1.1.2, h.1.2⟩
  | cons c u ih =>
    apply ih
    rw [List.cons_append] at h
    match c, u, h with
    | 92, [], h => rw [List.nil_append, noEsc] at h; simp only [Bool.and_eq_true] at h; exact h.2
    | 92, a :: u, h => rw [List.cons_append, noEsc] at h; simp only [Bool.and_eq_true] at h; exact h.2
    | c, u, h => 
      unfold noEsc at h
      split at h
      · rename_i heq; simp only [List.cons.injEq] at heq; rw [heq.2]; simp only [Bool.and_eq_true] at h; exact h.2
      · rename_i heq; simp only [List.cons.injEq] at heq; rw [heq.2]; exact h
      · rename_i heq; simp at heq

theorem sampleCalls_ok : ∀ c ∈ sampleCalls, CallOK c := by
  intro c hc
  have hname : ∀ w : Bytes, w ≠ [] → (∀ c ∈ w, (48 ≤ c ∧ c ≤ 57) ∨ (65 ≤ c ∧ c ≤ 90) ∨ (97 ≤ c ∧ c ≤ 122) ∨ c = 95) → NameOK (47 :: w) :=
    fun w h1 h2 => ⟨w, rfl, h1, h2⟩
  have h1 : TextOK b!"Total (net" := textOK_of "Total (net".toList (by decide +kernel)
  have h2 : TextOK b!"Gro" := textOK_of "Gro".toList (by decide +kernel)
  have h3 : TextOK b!"\\(ss)" := textOK_of "\\(ss)".toList (by decide +kernel)
  simp only [sampleCalls, List.mem_cons, List.not_mem_nil, or_false] at hc
  rcases hc with rfl | rfl | rfl | rfl | rfl | rfl | rfl | rfl | rfl | rfl | rfl | rfl | rfl | rfl | rfl | rfl | rfl | rfl | rfl | rfl | rfl | rfl | rfl | rfl
  all_goals try trivial
  · exact hname b!"F1" (by decide) (by decide)
  · exact hname b!"F_2" (by decide) (by decide)
  · refine ⟨by simp, ?_⟩
    intro s hs
    simp only [List.mem_cons, Piece.text.injEq, List.not_mem_nil, or_false, reduceCtorEq, false_or] at hs
    rcases hs with rfl | rfl
    · exact ⟨h2, by decide⟩
    · exact ⟨h3, by decide⟩
  · exact hname b!"Im1" (by decide) (by decide)

/-! ### C76: texts -/

/-- C76: for every list of calls with texts as in `CallOK` where restoring the graphics state does not change the font, size, spacing
or rise: the texts found are, in order, exactly the texts shown, each with its font, size, spacing and rise. -/
theorem C76_texts_partial {A : Arith F} {fl : Floats F} {fmt : F → Bytes} (hf : FormatOK A fl fmt) (fonts : Option (Map Bytes Decoder))
    (cs : List (Call F)) (hc : ∀ c ∈ cs, CallOK c) (hk : Always A fonts KeepsText (Page.init A) cs) :
    (parseContent fl fonts (renderAll fmt cs)).texts.map elemWhat = (pageOf A fonts cs).shown.map shownWhat := by
  rw [parse_render (format_fmt hf) fonts cs hc]
  refine (fold_rel (R := fun st p _ => RText fonts st p) (fun st p c cs hc hp h => step_text st p c cs hc hp h) cs _ _ hc hk ?_).texts
  obtain ⟨h0, h1, -⟩ := hf
  refine ⟨?_, rfl, rfl⟩
  simp only [State.init, Page.init, h0]

example : FormatOK fixArith fixFloats fixFmt ∧ (∀ c ∈ sampleCalls, CallOK c) ∧
    Always fixArith none KeepsText (Page.init fixArith) sampleCalls := by
  refine ⟨fix_format, sampleCalls_ok, ?_⟩
  simp [sampleCalls, Always, KeepsText, exec, Page.init, Page.setPaint, Page.setText, Page.move, Page.show]

/-- The instance on the sample: two shown texts, as read back. -/
example : (readBack sampleCalls).texts.map elemWhat =
    [(b!"Total (net", ⟨b!"/F1", 120000, 2500, 0, 0⟩), (b!"Gro\\(ss)", ⟨b!"/F_2", 95000, 2500, 0, 0⟩), (b!"Hi", ⟨b!"/F_2", 95000, 2500, 0, 0⟩)] := by
  decide +kernel

/-- C76 does not hold in full: a shown text with a closing parenthesis is not found at all. -/
theorem C76_parenthesis_violated : (page [.showText b!"a) b)"]).shown.map shownWhat = [(b!"a) b)", ⟨[], 0, 0, 0, 0⟩)] ∧
    (readBack [.showText b!"a) b)"]).texts = [] := by decide +kernel

/-- C76 does not hold in full: a text array with a closing bracket in a text is not found. -/
theorem C76_bracket_violated : (page [.showTextArray [.text b!"see [1]"]]).shown.map Shown.text = [b!"see [1]"] ∧
    (readBack [.showTextArray [.text b!"see [1]"]]).texts = [] := by decide +kernel

/-- C76 does not hold in full: a backslash before n is read back as a line end. -/
theorem C76_backslash_violated : (page [.showText b!"C:\\new"]).shown.map Shown.text = [b!"C:\\new"] ∧
    (readBack [.showText b!"C:\\new"]).texts.map Elem.text ≠ [b!"C:\\new"] := by decide +kernel

/-- C76 does not hold in full: restoring the graphics state does not bring back the font. -/
theorem C76_restore_violated :
    let cs : List (Call Int) := [.setFont b!"/F1" 120000, .saveState, .setFont b!"/F2" 90000, .showText b!"a", .restoreState, .showText b!"b"]
    (page cs).shown.map (fun s => (s.text, s.par.font)) = [(b!"a", b!"/F2"), (b!"b", b!"/F1")] ∧
    (readBack cs).texts.map (fun e => (e.text, e.font)) = [(b!"a", b!"/F2"), (b!"b", b!"/F2")] := by decide +kernel

/-- C76 does not hold in full: a font name with a hyphen or a plus sign is not recognised; the text keeps the font before. -/
theorem C76_name_violated :
    let cs : List (Call Int) := [.setFont b!"/F1" 120000, .setFont b!"/Times-Bold" 90000, .showText b!"a"]
    (page cs).shown.map (fun s => (s.text, s.par.font, s.par.size)) = [(b!"a", b!"/Times-Bold", 90000)] ∧
    (readBack cs).texts.map (fun e => (e.text, e.font, e.size)) = [(b!"a", b!"/F1", 120000)] := by decide +kernel

/-! ### C77: positions -/

/-- C77: for every list of calls that moves only by positions and by text matrices that translate, and starts each text object at
the origin or with a text matrix: the positions found are those of the texts shown. -/
theorem C77_positions_partial {A : Arith F} (hA : A.Laws) {fl : Floats F} {fmt : F → Bytes} (hf : FormatOK A fl fmt)
    (fonts : Option (Map Bytes Decoder)) (cs : List (Call F)) (hc : ∀ c ∈ cs, CallOK c)
    (hk : Always A fonts (PlainMoves A) (Page.init A) cs) :
    (parseContent fl fonts (renderAll fmt cs)).texts.map (fun e => (e.x, e.y)) = (pageOf A fonts cs).shown.map fun s => (s.x, s.y) := by
  rw [parse_render (format_fmt hf) fonts cs hc]
  obtain ⟨h0, h1, ha, -⟩ := hf
  refine (fold_rel (R := RPos A) (fun st p c cs _ hp h => step_pos hA h0 ha st p c cs hp h) cs _ _ hc hk ?_).shown
  refine ⟨.inl ?_, rfl⟩
  simp only [State.init, Page.init, h0]
  rfl

example : fixArith.Laws ∧ Always fixArith none (PlainMoves fixArith) (Page.init fixArith) sampleCalls := by
  refine ⟨fix_laws, ?_⟩
  simp [sampleCalls, Always, PlainMoves, exec, Page.init, Page.setPaint, Page.setText, Page.move, Page.show]

example : (readBack sampleCalls).texts.map (fun e => (e.x, e.y)) = [(720000, 7000000), (720000, 6856000), (720000, 6856000)] := by
  decide +kernel

/-- Two text objects, each with its own text matrix. -/
example : (readBack [.beginText, .textMatrix 10000 0 0 10000 50 60, .showText b!"a", .endText,
    .beginText, .textMatrix 10000 0 0 10000 70 80, .textPosition 1 2, .showText b!"b"]).texts.map (fun e => (e.x, e.y)) =
    [(50, 60), (71, 82)] := by decide +kernel

/-- C77 does not hold in full: a second text object starts where the first one ended. -/
theorem C77_two_objects_violated :
    let cs : List (Call Int) := [.beginText, .textPosition 1000 7000, .showText b!"a", .endText, .beginText, .textPosition 1000 6000, .showText b!"b", .endText]
    (page cs).shown.map (fun s => (s.x, s.y)) = [(1000, 7000), (1000, 6000)] ∧
    (readBack cs).texts.map (fun e => (e.x, e.y)) = [(1000, 7000), (2000, 13000)] := by decide +kernel

/-- C77 does not hold in full: moves by the leading are ignored. -/
theorem C77_leading_violated :
    let cs : List (Call Int) := [.leading 140000, .textPosition 0 7000000, .showText b!"a", .nextLine, .showText b!"b", .moveTextPosition 0 (-120000), .showText b!"c"]
    (page cs).shown.map (fun s => s.y) = [7000000, 6860000, 6740000] ∧
    (readBack cs).texts.map (fun e => e.y) = [7000000, 7000000, 7000000] := by decide +kernel

/-- C77 does not hold in full: a text on the next line is placed on the line before it. -/
theorem C77_next_line_violated :
    let cs : List (Call Int) := [.leading 140000, .textPosition 0 7000000, .showText b!"a", .showTextNextLine b!"b"]
    (page cs).shown.map (fun s => s.y) = [7000000, 6860000] ∧
    (readBack cs).texts.map (fun e => e.y) = [7000000, 7000000] := by decide +kernel

/-- C77 does not hold in full: a move after a scaling text matrix is not scaled. -/
theorem C77_scale_violated :
    let cs : List (Call Int) := [.textMatrix 20000 0 0 20000 0 0, .textPosition 1000 500, .showText b!"a"]
    (page cs).shown.map (fun s => (s.x, s.y)) = [(2000, 1000)] ∧
    (readBack cs).texts.map (fun e => (e.x, e.y)) = [(1000, 500)] := by decide +kernel

/-! ### C78: rectangles and lines -/

/-- C78: for every list of calls without gray colours where restoring the graphics state does not change colours and line width: the
rectangles and lines found are, in order, those drawn, with the colours and line width in force. -/
theorem C78_shapes_partial {A : Arith F} {fl : Floats F} {fmt : F → Bytes} (hf : FormatOK A fl fmt) (fonts : Option (Map Bytes Decoder))
    (cs : List (Call F)) (hc : ∀ c ∈ cs, CallOK c) (hk : Always A fonts KeepsPaint (Page.init A) cs) :
    (parseContent fl fonts (renderAll fmt cs)).graphics.map shapeOf = (pageOf A fonts cs).shapes := by
  rw [parse_render (format_fmt hf) fonts cs hc]
  obtain ⟨h0, h1, ha, -⟩ := hf
  refine (fold_rel (R := fun st p _ => RPaint st p) (fun st p c cs _ hp h => step_paint ha st p c cs hp h) cs _ _ hc hk ?_).shapes
  refine ⟨?_, rfl⟩
  simp only [State.init, Page.init, h0, h1]

example : Always fixArith none KeepsPaint (Page.init fixArith) sampleCalls := by
  simp [sampleCalls, Always, KeepsPaint, exec, Page.init, Page.setPaint, Page.setText, Page.move, Page.show, fixArith]

example : (readBack sampleCalls).graphics =
    [.rect [10000, 0, 5000] [0, 0, 0] 10000 720000 720000 1720000 1220000, .line [0, 0, 0] 20000] := by decide +kernel

/-- C78 does not hold in full: gray colours are ignored. -/
theorem C78_gray_violated :
    let cs : List (Call Int) := [.fillGray 5000, .rectangle 0 0 10 10]
    (page cs).shapes = [.rect ⟨[5000, 5000, 5000], [0, 0, 0], 10000⟩ 0 0 10 10] ∧
    (readBack cs).graphics.map shapeOf = [.rect ⟨[0, 0, 0], [0, 0, 0], 10000⟩ 0 0 10 10] := by decide +kernel

/-- C78 does not hold in full: restoring the graphics state brings back neither colours nor line width. -/
theorem C78_restore_violated :
    let cs : List (Call Int) := [.saveState, .fillRGB 10000 0 0, .lineWidth 50000, .restoreState, .rectangle 0 0 10 10]
    (page cs).shapes = [.rect ⟨[0, 0, 0], [0, 0, 0], 10000⟩ 0 0 10 10] ∧
    (readBack cs).graphics.map shapeOf = [.rect ⟨[10000, 0, 0], [0, 0, 0], 50000⟩ 0 0 10 10] := by decide +kernel

/-! ### C79: images -/

/-- C79: for every list of calls that sets the transformation matrix only while it is the unit matrix: the images found are, in
order, those drawn, with the transformation in force. -/
theorem C79_images_partial {A : Arith F} (hA : A.Laws) {fl : Floats F} {fmt : F → Bytes} (hf : FormatOK A fl fmt)
    (fonts : Option (Map Bytes Decoder)) (cs : List (Call F)) (hc : ∀ c ∈ cs, CallOK c)
    (hk : Always A fonts (SetsOnce A) (Page.init A) cs) :
    (parseContent fl fonts (renderAll fmt cs)).images.map (fun i => (i.id, i.transform)) = (pageOf A fonts cs).images := by
  rw [parse_render (format_fmt hf) fonts cs hc]
  obtain ⟨h0, h1, ha, -⟩ := hf
  refine (fold_rel (R := fun st p _ => RImage st p) (fun st p c cs _ hp h => step_image hA st p c cs hp h) cs _ _ hc hk ?_).images
  refine ⟨?_, rfl, rfl⟩
  simp only [State.init, Page.init, h0, h1]
  rfl

example : Always fixArith none (SetsOnce fixArith) (Page.init fixArith) sampleCalls := by
  simp [sampleCalls, Always, SetsOnce, exec, Page.init, Page.setPaint, Page.setText, Page.move, Page.show]

example : (readBack sampleCalls).images = [⟨b!"/Im1", [2000000, 0, 0, 1000000, 500000, 600000]⟩] := by decide +kernel

/-- core/write/content.go:270-276: the calls of `DrawImageAt`. -/
def drawImageAt (zero : F) (i : Bytes × F × F × F × F) : List (Call F) :=
  [.saveState, .setMatrix i.2.2.2.1 zero zero i.2.2.2.2 i.2.1 i.2.2.1, .drawImage i.1, .restoreState]

/-- C79: for every list of images drawn with `DrawImageAt` (name, x, y, width, height): the images found are those, each at its place with its size. -/
theorem C79_draw_image_at {A : Arith F} (hA : A.Laws) {fl : Floats F} {fmt : F → Bytes} (hf : FormatOK A fl fmt) (hz : A.val A.zero = A.zero)
    (fonts : Option (Map Bytes Decoder)) (is : List (Bytes × F × F × F × F)) (hn : ∀ i ∈ is, NameOK i.1) :
    (parseContent fl fonts (renderAll fmt (is.flatMap (drawImageAt A.zero)))).images.map (fun i => (i.id, i.transform)) =
      is.map fun i => (i.1, [A.val i.2.2.2.1, A.zero, A.zero, A.val i.2.2.2.2, A.val i.2.1, A.val i.2.2.1]) := by
  have key : ∀ (is : List (Bytes × F × F × F × F)) (p : Page F), p.gs.ctm = A.unit →
      Always A fonts (SetsOnce A) p (is.flatMap (drawImageAt A.zero)) ∧
      ((is.flatMap (drawImageAt A.zero)).foldl (exec A fonts) p).images = p.images ++
        is.map fun i => (i.1, [A.val i.2.2.2.1, A.zero, A.zero, A.val i.2.2.2.2, A.val i.2.1, A.val i.2.2.1]) := by
    intro is
    induction is with
    | nil => intro p _; exact ⟨trivial, by simp⟩
    | cons i is ih =>
      intro p hp
      have := ih (exec A fonts (exec A fonts (exec A fonts (exec A fonts p .saveState)
        (.setMatrix i.2.2.2.1 A.zero A.zero i.2.2.2.2 i.2.1 i.2.2.1)) (.drawImage i.1)) .restoreState) (by simpa [exec] using hp)
      constructor
      · rw [List.flatMap_cons]
        refine ⟨by simp [SetsOnce], fun _ _ _ _ _ _ _ => ?_, by simp [SetsOnce], by simp [SetsOnce], this.1⟩
        simpa [exec] using hp
      · rw [List.flatMap_cons, List.foldl_append]
        have e := this.2
        simp only [drawImageAt, List.foldl_cons, List.foldl_nil]
        rw [e]
        simp only [exec, hp, List.map_cons, List.append_assoc, List.singleton_append, hz]
        rw [hA.unit _ rfl]
  rw [C79_images_partial hA hf fonts _ ?_ (key is _ rfl).1]
  · exact (key is _ rfl).2
  · intro c hc
    obtain ⟨i, hi, hc⟩ := List.mem_flatMap.1 hc
    simp only [drawImageAt, List.mem_cons, List.not_mem_nil, or_false] at hc
    rcases hc with rfl | rfl | rfl | rfl
    · trivial
    · trivial
    · exact hn i hi
    · trivial

example : (readBack (drawImageAt 0 (b!"/Im1", 10, 20, 300, 400) ++ drawImageAt 0 (b!"/Im2", 50, 60, 700, 800))).images =
    [⟨b!"/Im1", [300, 0, 0, 400, 10, 20]⟩, ⟨b!"/Im2", [700, 0, 0, 800, 50, 60]⟩] := by decide +kernel

/-- C79 does not hold in full: a second matrix replaces the first instead of being multiplied to it. -/
theorem C79_concat_violated :
    let cs : List (Call Int) := [.setMatrix 20000 0 0 20000 0 0, .setMatrix 10000 0 0 10000 500 500, .drawImage b!"/Im1"]
    (page cs).images = [(b!"/Im1", [20000, 0, 0, 20000, 1000, 1000])] ∧
    (readBack cs).images = [⟨b!"/Im1", [10000, 0, 0, 10000, 500, 500]⟩] := by decide +kernel

end Pdfer.Props
