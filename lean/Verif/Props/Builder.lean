import Verif.Proofs.BuilderText
import Verif.Props.Outline

/-! C84 – C87: building documents. -/

namespace Pdfer.Props

open Pdfer.Go Pdfer.Writer Pdfer.Builder Pdfer.Spec.Builder Pdfer.Manipulate Pdfer.Incremental Pdfer.Outline Pdfer.Spec.Manipulate

/-! ### C84 -/

/-- C84: for every history of calls on a builder, its page builders and its writer (the caller's own SetObject and SetStreamObject
excepted), when `Bytes` writes the document: the root is a catalog that names the page tree, the page tree lists the finalised pages in
the order of the FinalizePage calls with their number as count, every page names the page tree as parent and has the size, resources and
content its page builder had at that call, all pages are different objects, and a number for the page tree was set aside exactly if a
page was finalised. -/
theorem C84_built_document (env : Builder.Env) (ops : List BOp) (h : ∀ op ∈ ops, Adds op) :
    let b := brun env ops
    let w := (finish b).w
    ∃ root, w.rootRef = ref root ∧ HoldsText w root (catalogText b.pagesNum) ∧ HoldsText w b.pagesNum (pagesText b.pages) ∧
      InOrder (StoredPage env w b.pagesNum) b.pages (finalised env ops) ∧
      b.pages.Nodup ∧ root ∉ b.pages ∧ b.pagesNum ∉ b.pages ∧ root ≠ b.pagesNum ∧
      (b.pagesNum = 0 ↔ finalised env ops = []) := by
  intro b w
  have hb := binv_run env ops h
  obtain ⟨hf, hr, hn, hc, hp, hlt⟩ := binv_finish hb
  have hlen := inOrder_length hb.stored
  refine ⟨b.w.nextObjNum, hr, hc, hp, hf.stored, ?_, ?_, ?_, ?_, ?_⟩
  · exact hb.inc.imp fun h => by omega
  · intro hm; have := (hb.range _ hm).2; exact absurd this (by show ¬ b.w.nextObjNum < b.w.nextObjNum; omega)
  · intro hm; have := (hb.range _ hm).1; exact absurd this (by show ¬ b.pagesNum + 1 < b.pagesNum; omega)
  · have : b.pagesNum < b.w.nextObjNum := hlt
    omega
  · constructor
    · intro h0
      rcases hb.num with h1 | h1
      · rw [h1.2] at hlen; exact List.length_eq_zero_iff.1 hlen.symm
      · exact absurd h1.1 (by show ¬ 0 < b.pagesNum; omega)
    · intro h0
      -- the number is set aside only when a page is finalised
      have key : ∀ (ops : List BOp) (c : Builder), c.pagesNum = 0 → finalisedFrom env c ops = [] →
          (ops.foldl (bstep env) c).pagesNum = 0 := by
        intro ops
        induction ops with
        | nil => exact fun c hc _ => hc
        | cons op ops ih =>
          intro c hc hl
          rw [finalisedFrom_cons, List.append_eq_nil_iff] at hl
          refine ih _ ?_ hl.2
          cases op with
          | addPage x y => exact hc
          | font i name => rw [bstep]; split <;> exact hc
          | image i name num => rw [bstep, onDraft]; split <;> exact hc
          | embedFont i num => rw [bstep, onDraft]; split <;> exact hc
          | draw i text => rw [bstep, onDraft]; split <;> exact hc
          | writer op => exact hc
          | bytes => exact hc
          | finalize i =>
            have h1 := hl.1
            rw [bstep]
            split
            · exact hc
            · rename_i p hp
              unfold logged at h1
              simp only [hp] at h1
              simp at h1
      exact key ops newBuilder rfl h0

/-- A history for the examples: two pages, the second finalised first; a font, an image and some drawing. -/
def exBOps : List BOp :=
  [.addPage b!"612" b!"792", .addPage b!"300" b!"400", .font 0 b!"Helvetica", .draw 0 b!"BT /F1 12 Tf (Hi) Tj ET\n",
   .writer (.addStream (.fresh []) (some b!"PIX") false), .image 1 [] 2, .draw 1 b!"/Im1 Do\n", .finalize 1, .finalize 0]
def exBEnv : Builder.Env := ⟨plainEnv, id⟩

example : (∀ op ∈ exBOps, Adds op) ∧ finalised exBEnv exBOps =
    [⟨b!"300", b!"400", [], [(b!"Im1", 2)], b!"/Im1 Do\n"⟩, ⟨b!"612", b!"792", [(b!"F1", 1)], [], b!"BT /F1 12 Tf (Hi) Tj ET\n"⟩] ∧
    (brun exBEnv exBOps).pages = [5, 7] ∧ (brun exBEnv exBOps).pagesNum = 3 := by
  refine ⟨?_, by decide +kernel, by decide +kernel, by decide +kernel⟩
  intro op hop
  simp only [exBOps, List.mem_cons, List.not_mem_nil, or_false] at hop
  rcases hop with rfl | rfl | rfl | rfl | rfl | rfl | rfl | rfl | rfl <;> trivial

example : let w := (finish (brun exBEnv exBOps)).w
    (w.objects.get 7).map (·.content) = some (some b!"<</Type/Page/Parent 3 0 R/MediaBox[0 0 612 792]/Contents 6 0 R/Resources<</Font<</F1 1 0 R>>>>>>") ∧
    (w.objects.get 3).map (·.content) = some (some b!"<</Type/Pages/Kids[5 0 R 7 0 R ]/Count 2>>") ∧
    (w.objects.get 8).map (·.content) = some (some b!"<</Type/Catalog/Pages 3 0 R>>") := by decide +kernel

/-! ### C85 -/

/-- C85 (partial: at least one page was finalised; resource names that cannot be taken for keywords; sizes printed as digits; table
mode, no encryption and the file fits the reader's windows, `FileFits`): for every history of calls, what `Bytes` returns can be opened,
and both readers list exactly the finalised pages in the order in which they were finalised; each page reads as written. -/
theorem C85_built_document_reads_partial (env : Builder.Env) (hord : ∀ l, (env.ord l).Perm l) (ops : List BOp) (h : ∀ op ∈ ops, Adds op)
    (hne : finalised env ops ≠ []) (hplain : ∀ p ∈ finalised env ops, PlainPage p)
    (hfit : Spec.FileFits env.wenv (finish (brun env ops)).w) (ienv : Incremental.Env)
    (henc : ienv.handleEncryption (Builder.bytes env (brun env ops)).1 = some none) :
    ∃ pdf pages F, openPdf ienv (Builder.bytes env (brun env ops)).1 = .ok pdf ∧
      (∀ fuel, F ≤ fuel → allPages (pdfGet ienv pdf) pdf.root fuel = some (some pages) ∧
        xAllPages (pdfGet ienv pdf) pdf.root fuel = some (some pages)) ∧
      InOrder (fun n p => ∃ contents, n = contents + 1 ∧
        pdfGet ienv pdf n = some (itoa n ++ b!" 0 obj\n" ++ pageText env.ord (brun env ops).pagesNum contents p ++ b!"\nendobj"))
        pages (finalised env ops) := by
  obtain ⟨pdf, F, h1, h2, h3⟩ := open_built env hord (brun env ops) (finalised env ops) (binv_run env ops h) (refs_brun env ops) hne hplain
    hfit ienv henc
  exact ⟨pdf, _, F, h1, h2, h3⟩

theorem exBOps_adds : ∀ op ∈ exBOps, Adds op := by
  intro op hop
  simp only [exBOps, List.mem_cons, List.not_mem_nil, or_false] at hop
  rcases hop with rfl | rfl | rfl | rfl | rfl | rfl | rfl | rfl | rfl <;> trivial

theorem exBOps_fits : Spec.FileFits plainEnv (finish (brun exBEnv exBOps)).w where
  fair := plainEnv_fair
  table := by decide +kernel
  plain := by decide +kernel
  size := by decide +kernel
  next := by decide +kernel
  once := by
    generalize hf : (write plainEnv (finish (brun exBEnv exBOps)).w).1 = F
    have key : ∀ i, i < F.length → F.length ≤ i + 106 → (b!"startxref").isPrefixOf (F.drop i) = true → i + 20 = F.length := by
      subst hf; decide +kernel
    intro i j hi1 hj1 hi hj
    have lt : ∀ i, Spec.OccursAt b!"startxref" F i → i < F.length := by
      intro i hi
      rw [occursAt_iff (by decide)] at hi
      apply Classical.byContradiction; intro hn
      rw [List.drop_of_length_le (by omega)] at hi
      exact absurd hi (by decide)
    have h1 := key i (lt i hi) hi1 (by rw [occursAt_iff (by decide)] at hi; exact List.isPrefixOf_iff_prefix.2 hi)
    have h2 := key j (lt j hj) hj1 (by rw [occursAt_iff (by decide)] at hj; exact List.isPrefixOf_iff_prefix.2 hj)
    omega
  window := by decide +kernel

example : ∃ pdf pages F, openPdf readEnv (Builder.bytes exBEnv (brun exBEnv exBOps)).1 = .ok pdf ∧
    (∀ fuel, F ≤ fuel → allPages (pdfGet readEnv pdf) pdf.root fuel = some (some pages) ∧
      xAllPages (pdfGet readEnv pdf) pdf.root fuel = some (some pages)) ∧ pages.length = 2 := by
  obtain ⟨pdf, pages, F, h1, h2, h3⟩ := C85_built_document_reads_partial exBEnv (fun l => List.Perm.refl l) exBOps exBOps_adds
    (by decide +kernel) (by
      have : finalised exBEnv exBOps =
        [⟨b!"300", b!"400", [], [(b!"Im1", 2)], b!"/Im1 Do\n"⟩, ⟨b!"612", b!"792", [(b!"F1", 1)], [], b!"BT /F1 12 Tf (Hi) Tj ET\n"⟩] := by
        decide +kernel
      rw [this]
      intro p hp
      simp only [List.mem_cons, List.not_mem_nil, or_false] at hp
      rcases hp with rfl | rfl
      · refine ⟨by decide, ?_⟩
        intro e he
        simp at he
        subst he
        refine ⟨by decide, by decide, ?_, ?_⟩ <;> rw [← noOcc_iff_infix, noOcc_iff_index] <;> decide
      · refine ⟨by decide, ?_⟩
        intro e he
        simp at he
        subst he
        refine ⟨by decide, by decide, ?_, ?_⟩ <;> rw [← noOcc_iff_infix, noOcc_iff_index] <;> decide) exBOps_fits readEnv rfl
  exact ⟨pdf, pages, F, h1, h2, (inOrder_length h3).trans (by decide +kernel)⟩

/-- C85 is violated for every history in which no page was finalised: the page tree is then stored under number 0, which no file can
hold, and listing the pages of the file fails (instead of giving none). -/
theorem C85_no_page_violated (env : Builder.Env) (ops : List BOp) (h : ∀ op ∈ ops, Adds op)
    (hne : finalised env ops = []) (hfit : Spec.FileFits env.wenv (finish (brun env ops)).w) (ienv : Incremental.Env)
    (henc : ienv.handleEncryption (Builder.bytes env (brun env ops)).1 = some none) :
    ∃ pdf, openPdf ienv (Builder.bytes env (brun env ops)).1 = .ok pdf ∧
      ∀ fuel, allPages (pdfGet ienv pdf) pdf.root (fuel + 1) = some none ∧ xAllPages (pdfGet ienv pdf) pdf.root (fuel + 1) = some none := by
  obtain ⟨root, hr, hc, _, _, _, _, _, _, h0⟩ := C84_built_document env ops h
  have hz := h0.2 hne
  have hb := binv_run env ops h
  obtain ⟨hf, hroot, hnext, hcat, _, _⟩ := binv_finish hb
  have hrefs := refs_brun env ops
  obtain ⟨pdf, h1, _, h3, h4, h5⟩ := open_writer env.wenv (finish (brun env ops)).w hf.inv ⟨.inr ⟨_, hroot⟩, hrefs.2.1, hrefs.2.2⟩ hfit ienv henc
  have hmax := hfit.next
  rw [hnext] at hmax
  have hpos := hb.inv.next_pos
  have hcatalog : pdfGet ienv pdf (brun env ops).w.nextObjNum = some (wrapped (brun env ops).w.nextObjNum (Builder.catalogText 0)) := by
    rw [hz] at hcat
    obtain ⟨c, hc, hgo⟩ := h5 _ _ (by omega) hcat
    unfold Spec.BodyOf at hc
    simp only [Option.getD_some] at hc
    subst hc
    unfold pdfGet
    rw [hgo (catalog_delimitable 0)]
    rfl
  have hrn : pdf.root = ref (brun env ops).w.nextObjNum := by
    have := h3 (brun env ops).w.nextObjNum.toNat (by rw [hroot]; congr 1; omega)
    rw [this]; congr 1; omega
  have hg0 : pdfGet ienv pdf 0 = none := by
    have : hasObject pdf 0 = false := by
      cases hh : hasObject pdf 0 with
      | false => rfl
      | true => have := ((h4 0).1 hh).1; omega
    unfold hasObject at this
    have hn : pdf.refs.get 0 = none := by
      cases hh : pdf.refs.get 0 with
      | none => rfl
      | some _ => rw [hh] at this; simp at this
    unfold pdfGet Incremental.getObject
    rw [hn]
  have hv := catalog_value_zero (brun env ops).w.nextObjNum
  have hp0 : parseObjectRef (natDec 0) = some 0 := by decide +kernel
  refine ⟨pdf, h1, fun fuel => ⟨?_, ?_⟩⟩
  · unfold allPages
    rw [hrn, parse_ref (by omega) (by omega)]
    simp only
    rw [hcatalog]
    simp only
    rw [hv.1, hp0]
    simp only [pageNums, hg0]
  · unfold xAllPages
    rw [hrn, parse_ref (by omega) (by omega), Option.bind_some, hcatalog]
    simp only
    rw [hv.2, hp0]
    simp only [xPageNums, hg0]

/-- C85 is violated: a finalised page on which nothing was drawn refers as its content to an object that is neither a stream nor anything
else: GetObject fails for it. -/
theorem C85_nothing_drawn_violated (env : Builder.Env) (ops : List BOp) (h : ∀ op ∈ ops, Adds op) (p : Page)
    (hp : p ∈ finalised env ops) (he : p.content = []) :
    let w := (finish (brun env ops)).w
    ∃ page contents, page ∈ (brun env ops).pages ∧ HoldsText w page (pageText env.ord (brun env ops).pagesNum contents p) ∧
      Writer.getObject w contents = none ∧ ∃ o, w.objects.get contents = some o ∧ o.stream = none := by
  intro w
  obtain ⟨root, _, _, _, hs, _⟩ := C84_built_document env ops h
  have key : ∀ (pages : List Int) (log : List Page), InOrder (StoredPage env w (brun env ops).pagesNum) pages log → p ∈ log →
      ∃ page ∈ pages, StoredPage env w (brun env ops).pagesNum page p := by
    intro pages log hio hm
    induction hio with
    | nil => simp at hm
    | @cons a b as bs hr _ ih =>
      rcases List.mem_cons.1 hm with rfl | hm
      · exact ⟨a, by simp, hr⟩
      · obtain ⟨x, hx, hx2⟩ := ih hm
        exact ⟨x, by simp [hx], hx2⟩
  obtain ⟨page, hpg, c, _, ht, o, ho, hoc, hos⟩ := key _ _ hs hp
  refine ⟨page, c, hpg, ht, ?_, o, ho, by rw [hos, if_pos he]⟩
  unfold Writer.getObject
  rw [ho]
  simp [hoc, hos, he]

example : (finalised exBEnv [.addPage b!"612" b!"792", .finalize 0]) = [⟨b!"612", b!"792", [], [], []⟩] ∧
    ((finish (brun exBEnv [.addPage b!"612" b!"792", .finalize 0])).w.objects.map fun e => (e.1, e.2.content)) =
      [(4, some b!"<</Type/Catalog/Pages 1 0 R>>"), (1, some b!"<</Type/Pages/Kids[3 0 R ]/Count 1>>"),
       (3, some b!"<</Type/Page/Parent 1 0 R/MediaBox[0 0 612 792]/Contents 2 0 R/Resources<<>>>>"), (2, none)] := by decide +kernel

theorem bstep_pages (env : Builder.Env) (b : Builder) (op : BOp) : b.pages <+: (bstep env b op).pages := by
  have hd : ∀ i f, b.pages <+: (onDraft b i f).pages := by
    intro i f
    unfold onDraft
    split <;> exact List.prefix_refl _
  cases op with
  | addPage x y => exact List.prefix_refl _
  | font i name => simp only [bstep]; split <;> exact List.prefix_refl _
  | image i name num => exact hd _ _
  | embedFont i num => exact hd _ _
  | draw i text => exact hd _ _
  | writer op => exact List.prefix_refl _
  | finalize i =>
    simp only [bstep]
    split
    · exact List.prefix_refl _
    · simp only [finalizePage, reservePages]
      split <;> exact List.prefix_append _ _
  | bytes => exact List.prefix_refl _

theorem brun_pages (env : Builder.Env) (ops more : List BOp) : (brun env ops).pages <+: (brun env (ops ++ more)).pages := by
  unfold brun
  rw [List.foldl_append]
  generalize ops.foldl (bstep env) newBuilder = b
  induction more generalizing b with
  | nil => exact List.prefix_refl _
  | cons op more ih => exact (bstep_pages env b op).trans (ih _)

theorem pageNumbers_get (b : Builder) (k : Nat) : (pageNumbers b).get ((k : Int) + 1) = b.pages[k]? := by
  have key : ∀ (l : List Int) (i k : Nat), Map.get ((l.zipIdx i).map fun e => (((e.2 : Int) + 1), e.1)) (((i + k : Nat) : Int) + 1) = l[k]? := by
    intro l
    induction l with
    | nil => intro i k; simp [Map.get]
    | cons n l ih =>
      intro i k
      rw [List.zipIdx_cons, List.map_cons]
      cases k with
      | zero => simp [Map.get]
      | succ k =>
        have := ih (i + 1) k
        rw [List.getElem?_cons_succ, ← this, show i + (k + 1) = i + 1 + k by omega]
        simp only [Map.get]
        rw [List.find?_cons_of_neg]
        intro h
        have h' : ((i : Int) + 1) = ((i + 1 + k : Nat) : Int) + 1 := by simpa using h
        omega
  have := key b.pages 0 k
  simpa [pageNumbers] using this

/-- C80: the bookmarks of a page builder: the page number `k` (counted from 1) stands for the page that was finished as the `k`-th, and that page is the
`k`-th of the document whatever is added afterwards; for a number without a page there is no destination. -/
theorem C80_builder_pages (env : Builder.Env) (ops more : List BOp) (k : Nat) (dest : Bytes) :
    (∀ n, (brun env ops).pages[k]? = some n → (brun env (ops ++ more)).pages[k]? = some n ∧
      destOf (pageNumbers (brun env ops)) ((k : Int) + 1) dest = b!"[" ++ ref n ++ b!" /XYZ 0 792 null]") ∧
    ((brun env ops).pages.length ≤ k → destOf (pageNumbers (brun env ops)) ((k : Int) + 1) dest = []) := by
  refine ⟨?_, ?_⟩
  · intro n hn
    refine ⟨?_, ?_⟩
    · obtain ⟨t, ht⟩ := brun_pages env ops more
      rw [← ht, List.getElem?_append_left (List.getElem?_eq_some_iff.1 hn).1]
      exact hn
    · unfold destOf
      rw [if_pos (by omega), pageNumbers_get, hn]
      simp [ref]
  · intro hk
    unfold destOf
    rw [if_pos (by omega), pageNumbers_get, List.getElem?_eq_none hk]

example : (brun exBEnv exBOps).pages.length = 2 := by decide +kernel

/-- C85 is violated: if bookmarks were set (so that the writer has an outline), the catalog of the written file no longer names the page
tree as a reference, whatever pages were built: no reader finds a page. -/
theorem C85_bookmarks_lose_pages_violated (env : Builder.Env) (ops : List BOp) (h : ∀ op ∈ ops, Adds op) (k : Int)
    (hn : (finish (brun env ops)).w.nextObjNum ≤ 9223372036854775807) :
    ∃ root p d, (finish (brun env ops)).w.rootRef = ref root ∧
      (updateCatalog ⟨(finish (brun env ops)).w, ref k⟩).w.objects.get root = some {
        content := some (b!"<</Outlines " ++ ref k ++ b!" /Pages (" ++ natDec p ++ b!") /Type /Catalog >>"), stream := none, dict := d } ∧
      ∀ m, parseObjectRef (xDictValue (itoa m ++ b!" 0 obj\n" ++
        (b!"<</Outlines " ++ ref k ++ b!" /Pages (" ++ natDec p ++ b!") /Type /Catalog >>") ++ b!"\nendobj") b!"/Pages") = none := by
  have hb := binv_run env ops h
  obtain ⟨hf, hroot, hnext, hcat, _, _⟩ := binv_finish hb
  have hpos := hb.inv.next_pos
  have hp0 : 0 ≤ (brun env ops).pagesNum := by rcases hb.num with h1 | h1 <;> omega
  have e : Builder.catalogText (brun env ops).pagesNum = b!"<</Type/Catalog" ++ b!"/Pages " ++ natDec (brun env ops).pagesNum.toNat ++ b!" 0 R" ++ b!">>" := by
    have : ref (brun env ops).pagesNum = natDec (brun env ops).pagesNum.toNat ++ b!" 0 R" := by
      obtain ⟨m, hm⟩ := Int.eq_ofNat_of_zero_le hp0
      rw [hm]; rfl
    rw [Builder.catalogText, this]
    simp
  obtain ⟨d, h1, h2⟩ := catalog_rewritten ⟨(finish (brun env ops)).w, ref k⟩ k (brun env ops).w.nextObjNum b!"<</Type/Catalog" b!">>"
    (brun env ops).pagesNum.toNat none rfl hroot (by omega) (by rw [hnext] at hn; omega) (by rw [← e]; exact hcat)
    ⟨b!"<<", b!"/Catalog" ++ (b!"/Pages " ++ natDec (brun env ops).pagesNum.toNat ++ b!" 0 R" ++ b!">>"), by simp⟩
    (by rw [← noOcc_iff_infix, noOcc_iff_index]; decide)
  exact ⟨_, _, d, hroot, h1, h2⟩

/-! ### C86 -/

/-- The resource calls on one page builder: a standard font, an image (its name, possibly empty, and its object), an embedded font
(its dictionary's object), and anything else that changes the writer. -/
inductive Call where
  | font (name : Bytes)
  | image (name : Bytes) (num : Int)
  | embed (num : Int)
  | other (op : Op)

/-- One call: the state afterwards, and the returned name without its slash together with the map it is in. -/
def callStep (env : Writer.Env) (s : Writer × Page) : Call → (Writer × Page) × Option (Bool × Bytes)
  | .font name => let r := addStandardFont s.1 s.2 name; ((r.1, r.2.1), some (true, r.2.2.drop 1))
  | .image name num => let r := addImage s.2 name num; ((s.1, r.1), some (false, r.2.drop 1))
  | .embed num => let r := Builder.embedFont s.1 s.2 num; ((s.1, r.1), some (true, r.2.drop 1))
  | .other op => (((step env s.1 op).1, s.2), none)

/-- The object a resource name of a page denotes. -/
def denotes (p : Page) (r : Bool × Bytes) : Option Int := if r.1 then p.fonts.get r.2 else p.images.get r.2

/-- The names `F1`, `F2`, … that the page builder makes up itself. -/
def MadeUp (name : Bytes) : Prop := ∃ k : Nat, name = b!"F" ++ natDec k

/-- Standard fonts not named like a made-up resource, images without a name, and other calls that do not overwrite. -/
def PlainCall : Call → Prop
  | .font name => ¬ MadeUp name
  | .image name _ => name = []
  | .embed _ => False
  | .other op => Adds (.writer op)

/-- What a call must give: a font name denotes an object with the dictionary of that font; an image name denotes that image. -/
def Gives (w : Writer) (p : Page) : Call → Option (Bool × Bytes) → Prop
  | .font name, some r => ∃ n, denotes p r = some n ∧ HoldsText w n (fontText name)
  | .image _ num, some r => denotes p r = some num
  | .embed num, some r => denotes p r = some num
  | .other _, _ => True
  | _, none => False

/-- The results of a list of calls, and the state afterwards. -/
def callRun (env : Writer.Env) (s : Writer × Page) : List Call → (Writer × Page) × List (Call × Option (Bool × Bytes))
  | [] => (s, [])
  | c :: cs => let r := callStep env s c; let q := callRun env r.1 cs; (q.1, (c, r.2) :: q.2)

/-- The keys of a map are the first made-up names. -/
structure Numbered (pre : Bytes) (m : Map Bytes Int) : Prop where
  keys : ∀ k, (m.get k).isSome → ∃ i, 1 ≤ i ∧ i ≤ m.length ∧ k = pre ++ natDec i

theorem numbered_fresh {pre : Bytes} {m : Map Bytes Int} (h : Numbered pre m) : m.get (pre ++ natDec (m.length + 1)) = none := by
  cases hh : m.get (pre ++ natDec (m.length + 1)) with
  | none => rfl
  | some v =>
    obtain ⟨i, h1, h2, h3⟩ := h.keys _ (by rw [hh]; rfl)
    have h4 := List.append_cancel_left h3
    have := natDec_inj h4
    omega

theorem length_set_new {m : Map Bytes Int} {k : Bytes} {v : Int} (h : m.get k = none) : (m.set k v).length = m.length + 1 := by
  unfold Map.set
  have : m.filter (fun e => decide (e.1 ≠ k)) = m := by
    apply List.filter_eq_self.2
    intro e he
    simp only [decide_eq_true_eq]
    intro hk
    subst hk
    have : (m.get e.1).isSome := (Map.get_isSome_iff _ _).2 (List.mem_map_of_mem (f := Prod.fst) he)
    rw [h] at this
    exact absurd this (by simp)
  simp only [List.length_cons]
  exact congrArg (fun l => List.length l + 1) this

theorem numbered_set {pre : Bytes} {m : Map Bytes Int} (h : Numbered pre m) (v : Int) :
    Numbered pre (m.set (pre ++ natDec (m.length + 1)) v) := by
  constructor
  intro k hk
  rw [length_set_new (numbered_fresh h)]
  rw [Map.get_set] at hk
  split at hk
  · rename_i e
    exact ⟨m.length + 1, by omega, by omega, e⟩
  · obtain ⟨i, h1, h2, h3⟩ := h.keys k hk
    exact ⟨i, h1, by omega, h3⟩

/-- C86 (partial: standard fonts whose names are not themselves of the form F<number>, images without a given name, no embedded font, no
SetObject by the caller): for every sequence of calls on a page builder, every resource name returned along the way still denotes, at the
end, the font or image it was returned for. -/
theorem C86_resource_names_partial (env : Writer.Env) (calls : List Call) (h : ∀ c ∈ calls, PlainCall c) (w : Writer) (hw : Inv w)
    (x y : Bytes) :
    let r := callRun env (w, newPage x y) calls
    ∀ e ∈ r.2, Gives r.1.1 r.1.2 e.1 e.2 := by
  have key : ∀ (calls : List Call) (w : Writer) (p : Page), (∀ c ∈ calls, PlainCall c) → Inv w → Numbered b!"F" p.fonts → Numbered b!"Im" p.images →
      (∀ k n, p.fonts.get k = some n → n < w.nextObjNum) →
      let r := callRun env (w, p) calls
      (∀ e ∈ r.2, Gives r.1.1 r.1.2 e.1 e.2) ∧ (∀ k n, p.fonts.get k = some n → r.1.2.fonts.get k = some n) ∧
        (∀ k n, p.images.get k = some n → r.1.2.images.get k = some n) ∧
        (∀ k, k < w.nextObjNum → r.1.1.objects.get k = w.objects.get k) := by
    intro calls
    induction calls with
    | nil => intro w p _ _ _ _ _; exact ⟨by simp [callRun], fun _ _ h => h, fun _ _ h => h, fun _ _ => rfl⟩
    | cons c cs ih =>
      intro w p hc hi hf hm hlt
      have hcs : ∀ c ∈ cs, PlainCall c := fun d hd => hc d (by simp [hd])
      have hc0 := hc c (by simp)
      simp only [callRun]
      cases c with
      | font name =>
        have hno : ¬ (p.fonts.get name).isSome := by
          intro hs
          obtain ⟨i, _, _, e⟩ := hf.keys name hs
          exact hc0 ⟨i, e⟩
        have hstep : callStep env (w, p) (.font name) = (((addObject w (some (fontText name))).1,
            { p with fonts := p.fonts.set (b!"F" ++ natDec (p.fonts.length + 1)) w.nextObjNum }), some (true, b!"F" ++ natDec (p.fonts.length + 1))) := by
          simp only [callStep, addStandardFont]
          rw [if_neg hno]
          simp [addObject]
        rw [hstep]
        simp only
        have hfr := numbered_fresh hf
        obtain ⟨h1, h2, h3, h4⟩ := ih (addObject w (some (fontText name))).1 { p with fonts := p.fonts.set (b!"F" ++ natDec (p.fonts.length + 1)) w.nextObjNum } hcs
          (inv_step env w (.addObject (some (fontText name))) hi) (numbered_set hf _) hm (by
            intro k n hk
            show n < w.nextObjNum + 1
            simp only at hk
            rw [Map.get_set] at hk
            split at hk
            · simp at hk; omega
            · have := hlt k n hk; omega)
        refine ⟨?_, ?_, h3, ?_⟩
        · intro e he
          rcases List.mem_cons.1 he with rfl | he
          · refine ⟨w.nextObjNum, ?_, ?_⟩
            · exact h2 _ _ (by simp only; rw [Map.get_set, if_pos rfl])
            · unfold HoldsText
              rw [h4 _ (by show w.nextObjNum < w.nextObjNum + 1; omega)]
              simp only [addObject]
              rw [Map.get_set, if_pos rfl]
          · exact h1 e he
        · intro k n hk
          refine h2 k n ?_
          simp only
          rw [Map.get_set, if_neg]
          · exact hk
          · rintro rfl
            rw [hfr] at hk
            simp at hk
        · intro k hk
          rw [h4 k (by show k < w.nextObjNum + 1; omega)]
          exact frame_step env w (.addObject (some (fontText name))) trivial k hk
      | image name num =>
        have hname : name = [] := hc0
        subst hname
        have hstep : callStep env (w, p) (.image [] num) = ((w,
            { p with images := p.images.set (b!"Im" ++ natDec (p.images.length + 1)) num }), some (false, b!"Im" ++ natDec (p.images.length + 1))) := by
          have : dropSlash (b!"Im" ++ natDec (p.images.length + 1)) = b!"Im" ++ natDec (p.images.length + 1) := by
            unfold dropSlash
            rw [if_neg (by simp [List.isPrefixOf])]
          simp only [callStep, addImage, if_true, this]
          rfl
        rw [hstep]
        simp only
        have hfr := numbered_fresh hm
        obtain ⟨h1, h2, h3, h4⟩ := ih w { p with images := p.images.set (b!"Im" ++ natDec (p.images.length + 1)) num } hcs hi hf (numbered_set hm _) hlt
        refine ⟨?_, h2, ?_, h4⟩
        · intro e he
          rcases List.mem_cons.1 he with rfl | he
          · exact h3 _ _ (by simp only; rw [Map.get_set, if_pos rfl])
          · exact h1 e he
        · intro k n hk
          refine h3 k n ?_
          simp only
          rw [Map.get_set, if_neg]
          · exact hk
          · rintro rfl
            rw [hfr] at hk
            simp at hk
      | embed num => exact absurd hc0 (by simp [PlainCall])
      | other op =>
        have hstep : callStep env (w, p) (.other op) = (((step env w op).1, p), none) := rfl
        rw [hstep]
        simp only
        have hn := next_mono env w op
        obtain ⟨h1, h2, h3, h4⟩ := ih (step env w op).1 p hcs (inv_step env w op hi) hf hm (fun k n hk => by have := hlt k n hk; omega)
        refine ⟨?_, h2, h3, ?_⟩
        · intro e he
          rcases List.mem_cons.1 he with rfl | he
          · trivial
          · exact h1 e he
        · intro k hk
          rw [h4 k (by omega)]
          exact frame_step env w op hc0 k hk
  exact (key calls w (newPage x y) h hw ⟨by simp [newPage, Map.get]⟩ ⟨by simp [newPage, Map.get]⟩ (by simp [newPage, Map.get])).1

example : (callRun plainEnv (newWriter, newPage b!"612" b!"792")
    [.font b!"Helvetica", .image [] 9, .other (.addObject (some b!"x")), .font b!"Courier", .image [] 7]).2.map (·.2) =
    [some (true, b!"F1"), some (false, b!"Im1"), none, some (true, b!"F2"), some (false, b!"Im2")] := by decide +kernel
example : ∀ c ∈ ([.font b!"Helvetica", .image [] 9, .other (.addObject (some b!"x")), .font b!"Courier", .image [] 7] : List Call), PlainCall c := by
  intro c hc
  simp only [List.mem_cons, List.not_mem_nil, or_false] at hc
  rcases hc with rfl | rfl | rfl | rfl | rfl
  · rintro ⟨k, hk⟩; simp at hk
  · rfl
  · trivial
  · rintro ⟨k, hk⟩; simp at hk
  · rfl

/-- C86, the part that holds for every call on every page: right after the call an image name denotes that image, an embedded font name that
font; and a font that was not found among the names of the page is added with its own dictionary. -/
theorem C86_right_after_call_partial (w : Writer) (p : Page) (name : Bytes) (num : Int) :
    (let r := addImage p name num; r.1.images.get (r.2.drop 1) = some num) ∧
    (let r := Builder.embedFont w p num; r.1.fonts.get (r.2.drop 1) = some num) ∧
    ((p.fonts.get name).isSome = false → let r := addStandardFont w p name
      r.2.1.fonts.get (r.2.2.drop 1) = some w.nextObjNum ∧ HoldsText r.1 w.nextObjNum (fontText name)) := by
  refine ⟨?_, ?_, ?_⟩
  · simp only [addImage, List.cons_append, List.nil_append, List.drop_succ_cons, List.drop_zero]
    rw [Map.get_set, if_pos rfl]
  · simp only [Builder.embedFont, List.cons_append, List.nil_append, List.drop_succ_cons, List.drop_zero]
    rw [Map.get_set, if_pos rfl]
  · intro h
    simp only [addStandardFont]
    rw [if_neg (by simp [h])]
    simp only [addObject, HoldsText]
    constructor
    · rw [show (b!"/" ++ (b!"F" ++ natDec (p.fonts.length + 1))).drop 1 = b!"F" ++ natDec (p.fonts.length + 1) from rfl, Map.get_set, if_pos rfl]
    · rw [Map.get_set, if_pos rfl]

/-- C86 is violated: whatever is on the page, asking for a font by the name of a resource of the page gives that resource back and adds
nothing; with one font on the page, asking for the font `F1` gives that one font. -/
theorem C86_font_named_like_resource_violated (w : Writer) (p : Page) (name : Bytes) (h : (p.fonts.get name).isSome) :
    addStandardFont w p name = (w, p, b!"/" ++ name) := by
  unfold addStandardFont
  rw [if_pos h]

example : let r := callRun plainEnv (newWriter, newPage b!"1" b!"1") [.font b!"Helvetica", .font b!"F1"]
    r.2.map (·.2) = [some (true, b!"F1"), some (true, b!"F1")] ∧
    r.1.1.objects.map (fun e => e.2.content) = [some b!"<</Type/Font/Subtype/Type1/BaseFont/Helvetica>>"] := by decide +kernel

/-- C86 is violated: adding the same standard font again stores it again under another name (the documented check for fonts that were
already added compares font names with resource names). -/
theorem C86_same_font_twice_violated (w : Writer) (p : Page) (name : Bytes) (h : ¬ MadeUp name) (hno : (p.fonts.get name).isSome = false) :
    let r := addStandardFont w p name
    let q := addStandardFont r.1 r.2.1 name
    q.1.nextObjNum = w.nextObjNum + 2 := by
  intro r q
  have h1 : r = ((addObject w (some (fontText name))).1, { p with fonts := p.fonts.set (b!"F" ++ natDec (p.fonts.length + 1)) (addObject w (some (fontText name))).2 },
      b!"/" ++ (b!"F" ++ natDec (p.fonts.length + 1))) := by
    show addStandardFont w p name = _
    unfold addStandardFont
    rw [if_neg (by simp [hno])]
  have h2 : (r.2.1.fonts.get name).isSome = false := by
    rw [h1]
    simp only
    rw [Map.get_set, if_neg]
    · exact hno
    · intro e; exact h ⟨_, e⟩
  show (addStandardFont r.1 r.2.1 name).1.nextObjNum = _
  unfold addStandardFont
  rw [if_neg (by simp [h2])]
  simp only [addObject, h1]
  omega

/-- C86 is violated: an unnamed image takes the name of an image that was given that name, which then denotes the wrong image; and a
standard font takes the name of an embedded font. -/
theorem C86_names_reused_violated :
    (∃ calls : List Call, ∃ n : Int, ∃ r, (callRun plainEnv (newWriter, newPage [] []) calls).2.head? = some (.image b!"Im2" n, some r) ∧
      denotes (callRun plainEnv (newWriter, newPage [] []) calls).1.2 r ≠ some n) ∧
    (∃ calls : List Call, ∃ n : Int, ∃ r, (.embed n, some r) ∈ (callRun plainEnv (newWriter, newPage [] []) calls).2 ∧
      denotes (callRun plainEnv (newWriter, newPage [] []) calls).1.2 r ≠ some n) := by
  refine ⟨⟨[.image b!"Im2" 5, .image [] 6], 5, (false, b!"Im2"), rfl, ?_⟩,
    ⟨[.other (.addObject none), .embed 1, .font b!"Courier"], 1, (true, b!"F2"), ?_, ?_⟩⟩
  · decide +kernel
  · right; left
  · decide +kernel

/-! ### C87 -/

/-- C87 (partial: the file is not the same, see below): when `Bytes` is called again, the builder has the same pages in the same order under
the same numbers, stored as before, and the page tree is the same. -/
theorem C87_bytes_again_partial (env : Builder.Env) (ops : List BOp) (h : ∀ op ∈ ops, Adds op) :
    let b := brun env ops
    let c := brun env (ops ++ [.bytes])
    c = (Builder.bytes env b).2 ∧ c.pages = b.pages ∧ c.pagesNum = b.pagesNum ∧ c.drafts = b.drafts ∧
      InOrder (StoredPage env (finish c).w c.pagesNum) c.pages (finalised env ops) ∧
      HoldsText (finish c).w c.pagesNum (pagesText b.pages) := by
  intro b c
  have e : c = (Builder.bytes env b).2 := by
    show brun env (ops ++ [.bytes]) = _
    unfold brun
    rw [List.foldl_append]
    rfl
  have hl : finalised env (ops ++ [.bytes]) = finalised env ops := by
    unfold finalised
    generalize newBuilder = s
    clear e c b h
    induction ops generalizing s with
    | nil => rfl
    | cons op ops ih => rw [List.cons_append, finalisedFrom_cons, finalisedFrom_cons, ih]
  have hb : BInv env c (finalised env ops) := by
    have := binv_run env (ops ++ [.bytes]) (by
      intro op hop
      rcases List.mem_append.1 hop with hop | hop
      · exact h op hop
      · simp at hop; subst hop; trivial)
    rw [hl] at this
    exact this
  have hp : c.pages = b.pages := by rw [e]; rfl
  obtain ⟨hf, _, _, _, ht, _⟩ := binv_finish hb
  refine ⟨e, hp, by rw [e]; rfl, by rw [e]; rfl, hf.stored, by rw [← hp]; exact ht⟩

/-- C87 is violated for every history: the second `Bytes` makes a second catalog, and the file names another root and has at least one more
object than the first. -/
theorem C87_second_catalog_violated (env : Builder.Env) (ops : List BOp) (h : ∀ op ∈ ops, Adds op) :
    let b := brun env ops
    let c := (Builder.bytes env b).2
    ∃ r s, (finish b).w.rootRef = ref r ∧ (finish c).w.rootRef = ref s ∧ r < s ∧
      HoldsText (finish c).w r (Builder.catalogText b.pagesNum) ∧ HoldsText (finish c).w s (Builder.catalogText b.pagesNum) := by
  intro b c
  have hb := binv_run env ops h
  obtain ⟨hf, hroot, hnext, hcat, _, hlt⟩ := binv_finish hb
  have hc : BInv env c (finalised env ops) := by
    have := binv_step hb .bytes trivial
    rw [show logged (brun env ops) BOp.bytes = [] from rfl, List.append_nil] at this
    exact this
  obtain ⟨_, hroot2, _, hcat2, _, hlt2⟩ := binv_finish hc
  have hpn : c.pagesNum = b.pagesNum := rfl
  have hmono : (finish b).w.nextObjNum ≤ c.w.nextObjNum := next_mono env.wenv (finish b).w .write
  have hlt3 : b.w.nextObjNum < c.w.nextObjNum := by have : (finish b).w.nextObjNum = b.w.nextObjNum + 1 := hnext; omega
  have hlt0 : b.pagesNum < b.w.nextObjNum := hlt
  refine ⟨b.w.nextObjNum, c.w.nextObjNum, hroot, hroot2, hlt3, ?_, hcat2⟩
  unfold HoldsText
  have h1 : (finish c).w.objects.get b.w.nextObjNum = c.w.objects.get b.w.nextObjNum := by
    have hn1 : (setObject c.w c.pagesNum (some (pagesText c.pages))).nextObjNum = c.w.nextObjNum := by
      simp only [setObject]; rw [if_neg (by omega)]
    show Map.get (Map.set _ (setObject c.w c.pagesNum (some (pagesText c.pages))).nextObjNum _) _ = _
    rw [hn1, Map.get_set, if_neg (by omega)]
    simp only [setObject]
    rw [Map.get_set, if_neg (by omega)]
  rw [h1]
  have h2 := frame_step env.wenv (finish b).w .write trivial b.w.nextObjNum (by
    have : (finish b).w.nextObjNum = b.w.nextObjNum + 1 := hnext
    omega)
  exact h2.trans hcat

example : let b := brun exBEnv exBOps
    (Builder.bytes exBEnv b).1 ≠ (Builder.bytes exBEnv (Builder.bytes exBEnv b).2).1 := by
  intro b h
  have := congrArg List.length h
  revert this
  decide +kernel

/-- C87 is violated even for one call on one state: with two fonts on a page the file depends on the order in which Go walks the map. -/
theorem C87_map_order_violated : ∃ (ops : List BOp) (env env' : Builder.Env), (∀ l, (env.ord l).Perm l) ∧ (∀ l, (env'.ord l).Perm l) ∧
    env.wenv = env'.wenv ∧ (Builder.bytes env (brun env ops)).1 ≠ (Builder.bytes env' (brun env' ops)).1 := by
  refine ⟨[.addPage b!"1" b!"1", .font 0 b!"A", .font 0 b!"B", .finalize 0], ⟨plainEnv, id⟩, ⟨plainEnv, List.reverse⟩,
    fun l => List.Perm.refl l, fun l => List.reverse_perm l, rfl, ?_⟩
  intro h
  have := congrArg (contains · b!"F1 1 0 R/F2") h
  revert this
  decide +kernel

end Pdfer.Props
