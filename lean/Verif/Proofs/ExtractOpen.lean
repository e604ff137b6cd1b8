import Verif.Proofs.ExtractBuilt
import Verif.Proofs.OpenWritten

/-! Opening a built document and reading its pages. -/

namespace Pdfer.Extract

open Pdfer.Go Pdfer.Enc Pdfer.Content Pdfer.Manipulate Pdfer.Spec.Content Pdfer.Spec.Extract Pdfer.Builder Pdfer.Writer
  Pdfer.Spec.Builder Pdfer.Outline Pdfer.Incremental

variable {F : Type}

/-- What is read of a built page. -/
theorem read_page (fl : XFloats F) (get : Int → Option Bytes) (z : Bytes → Bytes) (unz : Bytes → Option Bytes)
    (ord : List (Bytes × Int) → List (Bytes × Int)) (hord : ∀ l, (ord l).Perm l)
    (n parent contents : Int) (p : Builder.Page) (hp : FreePage p) (hc : 0 < contents) (hm : contents ≤ 9223372036854775807)
    (hs : p.content ≠ [] → StreamOK z unz p.content)
    (hg : get contents = some (wrapped contents (if p.content = [] then [] else streamBody (z p.content))))
    (hf : ∀ e ∈ p.fonts, 0 < e.2 ∧ e.2 ≤ 9223372036854775807 ∧ ∃ name, FontName name ∧ get e.2 = some (wrapped e.2 (fontText name))) :
    ∃ x fonts, page fl get unz n (wrapped n (pageText ord parent contents p)) = .ok x ∧ AllStd fonts ∧
      x.mediaBox = rectOf ([b!"0", b!"0", p.width, p.height].filterMap fl.parse) ∧
      x.width = (match x.mediaBox with | some (a, _, c, _) => fl.sub c a | none => fl.zero) ∧
      x.height = (match x.mediaBox with | some (_, b, _, d) => fl.sub d b | none => fl.zero) ∧
      x.cropBox = none ∧ x.rotation = 0 ∧ x.annots = [] ∧
      x.texts = (parseContent fl.toFloats fonts p.content).texts ∧
      x.graphics = (parseContent fl.toFloats fonts p.content).graphics ∧
      x.images = (parseContent fl.toFloats fonts p.content).images := by
  obtain ⟨k1, k2, k3⟩ := page_absent_keys fl ord hord n parent contents p hp
  obtain ⟨_, k4⟩ := page_resources get ord hord n parent contents p hp
  have k5 := page_contentRefs ord n parent contents p hp hc
  have k6 := page_box fl ord n parent contents p hp
  let fonts : Option (Map Bytes Decoder) := if resInner ord p = [] then none else some (fontDecoders get unz (resInner ord p))
  have hstd : AllStd fonts := by
    intro m hm
    by_cases h : resInner ord p = []
    · simp only [fonts, if_pos h] at hm; exact absurd hm (by simp)
    · simp only [fonts, if_neg h] at hm
      exact decoders_std get unz ord hord p hp hf m hm
  have k7 : contentsOf fl get unz fonts [natDec contents.toNat] = [parseContent fl.toFloats fonts p.content] := by
    unfold contentsOf
    have e1 : (parseObjectRef (natDec contents.toNat)).bind get = some (wrapped contents (if p.content = [] then [] else streamBody (z p.content))) := by
      rw [parse_word hc hm]; exact hg
    rw [List.filterMap_cons, e1]
    simp only [Option.map_some, List.filterMap_nil]
    by_cases h : p.content = []
    · rw [if_pos h, empty_content, h]
    · rw [if_neg h, stream_content (hs h)]
  have key : ∃ r, page fl get unz n (wrapped n (pageText ord parent contents p)) = .ok
      { mediaBox := rectOf ([b!"0", b!"0", p.width, p.height].filterMap fl.parse)
        width := match rectOf ([b!"0", b!"0", p.width, p.height].filterMap fl.parse) with | some (a, _, c, _) => fl.sub c a | none => fl.zero
        height := match rectOf ([b!"0", b!"0", p.width, p.height].filterMap fl.parse) with | some (_, b, _, d) => fl.sub d b | none => fl.zero
        cropBox := none, rotation := 0, resources := r, annots := []
        texts := (parseContent fl.toFloats fonts p.content).texts
        graphics := (parseContent fl.toFloats fonts p.content).graphics
        images := (parseContent fl.toFloats fonts p.content).images } := by
    unfold page
    simp only [k1, k2, k3, k4, k5, k6, if_true]
    have e : (if resInner ord p = [] then none else some (fontDecoders get unz (resInner ord p))) = fonts := rfl
    simp only [e, k7, Res.bind, List.flatMap_cons, List.flatMap_nil, List.append_nil]
    exact ⟨_, rfl⟩
  obtain ⟨r, hr⟩ := key
  exact ⟨_, fonts, hr, hstd, rfl, rfl, rfl, rfl, rfl, rfl, rfl, rfl, rfl⟩

/-- The pages of a built document, as they are read. -/
theorem built_pages (fl : XFloats F) (unz : Bytes → Option Bytes) (env : Builder.Env) (hord : ∀ l, (env.ord l).Perm l) (hcr : env.wenv.crypt = none)
    (b : Builder.Builder) (log : List Builder.Page) (h : BInv env b log) (hx : XInv env b log) (hrefs : Refs b.w)
    (hne : log ≠ []) (hfree : ∀ p ∈ log, FreePage p) (hs : ∀ p ∈ log, p.content ≠ [] → StreamOK env.wenv.z unz p.content)
    (hfit : Spec.FileFits env.wenv (finish b).w) (ienv : Incremental.Env) (henc : ienv.handleEncryption (bytes env b).1 = some none) :
    ∃ pdf pages N, openPdf ienv (bytes env b).1 = .ok pdf ∧
      (∀ fuel, N ≤ fuel → extractPages fl (pdfGet ienv pdf) unz pdf.root fuel = some (.ok pages)) ∧
      InOrder (fun x p => ∃ fonts, AllStd fonts ∧
        x.mediaBox = rectOf ([b!"0", b!"0", p.width, p.height].filterMap fl.parse) ∧
        x.width = (match x.mediaBox with | some (a, _, c, _) => fl.sub c a | none => fl.zero) ∧
        x.height = (match x.mediaBox with | some (_, b, _, d) => fl.sub d b | none => fl.zero) ∧
        x.cropBox = none ∧ x.rotation = 0 ∧ x.annots = [] ∧
        x.texts = (parseContent fl.toFloats fonts p.content).texts ∧
        x.graphics = (parseContent fl.toFloats fonts p.content).graphics ∧
        x.images = (parseContent fl.toFloats fonts p.content).images) pages log := by
  obtain ⟨pdf, N, h1, h2, h3⟩ := open_built env hord b log h hrefs hne (fun p hp => freePage_plain (hfree p hp)) hfit ienv henc
  obtain ⟨hf, hroot, hnext, _, _, hlt⟩ := binv_finish h
  have hxf := xinv_finish h hx
  obtain ⟨pdf', g1, _, _, _, g5⟩ := open_writer_dict env.wenv (finish b).w hf.inv ⟨.inr ⟨_, hroot⟩, hrefs.2.1, hrefs.2.2⟩ hfit ienv henc
  have hpdf : pdf' = pdf := by
    have : openPdf ienv (bytes env b).1 = .ok pdf' := g1
    rw [h1] at this
    exact (Res.ok.inj this).symm
  subst hpdf
  have hmax := hfit.next
  have hget : ∀ m t, 1 ≤ m → HoldsText (finish b).w m t → Spec.Delimitable t → pdfGet ienv pdf' m = some (wrapped m t) := by
    intro m t hm ht hd
    obtain ⟨c, hc, -, hgo⟩ := g5 m _ hm ht
    unfold Spec.BodyOf at hc
    simp only [Option.getD_some] at hc
    subst hc
    unfold pdfGet
    rw [hgo hd]
    rfl
  have hfont : ∀ p ∈ log, ∀ e ∈ p.fonts, 0 < e.2 ∧ e.2 ≤ 9223372036854775807 ∧ ∃ name, FontName name ∧
      pdfGet ienv pdf' e.2 = some (wrapped e.2 (fontText name)) := by
    intro p hp e he
    obtain ⟨f1, f2, _, name, f4, f5⟩ := hxf.fonts p (.inr hp) e he
    exact ⟨f1, by omega, name, f4, hget _ _ (by omega) f5 (font_delimitable f4)⟩
  have hpage : ∀ n ∈ b.pages, ∀ p ∈ log, StoredPage env (finish b).w b.pagesNum n p → StoredData env (finish b).w n p →
      ∀ s, pdfGet ienv pdf' n = some s → ∃ x, page fl (pdfGet ienv pdf') unz n s = .ok x ∧ ∃ fonts, AllStd fonts ∧
        x.mediaBox = rectOf ([b!"0", b!"0", p.width, p.height].filterMap fl.parse) ∧
        x.width = (match x.mediaBox with | some (a, _, c, _) => fl.sub c a | none => fl.zero) ∧
        x.height = (match x.mediaBox with | some (_, b, _, d) => fl.sub d b | none => fl.zero) ∧
        x.cropBox = none ∧ x.rotation = 0 ∧ x.annots = [] ∧
        x.texts = (parseContent fl.toFloats fonts p.content).texts ∧
        x.graphics = (parseContent fl.toFloats fonts p.content).graphics ∧
        x.images = (parseContent fl.toFloats fonts p.content).images := by
    intro n hn p hp hst hda s hgs
    obtain ⟨c, rfl, ht, o, ho, hoc, hos⟩ := hst
    have hr := h.range _ hn
    have hpn : 0 ≤ b.pagesNum := by rcases h.num with k | k <;> omega
    have hcs : pdfGet ienv pdf' c = some (wrapped c (if p.content = [] then [] else streamBody (env.wenv.z p.content))) := by
      by_cases hcn : p.content = []
      · rw [if_pos hcn]
        rw [if_pos hcn] at hos
        obtain ⟨t, hc, -, hgo⟩ := g5 c o (by omega) ho
        unfold Spec.BodyOf at hc
        rw [hos] at hc
        simp only [hoc, Option.getD_none] at hc
        subst hc
        unfold pdfGet
        rw [hgo ⟨by rw [absent_iff (by decide)]; intro i hi; simp at hi, by simp, .inl (by rw [absent_iff (by decide)]; intro i hi; simp at hi)⟩]
        rfl
      · rw [if_neg hcn]
        obtain ⟨a, _, ha2, ha3⟩ := hda hcn
        rw [show c + 1 - 1 = c by omega] at ha3
        obtain ⟨t, _, hc, hgo⟩ := g5 c _ (by omega) ha3
        have := hc hcr _ rfl
        simp only [Option.getD_some, ha2] at this
        have hb : t = streamBody (env.wenv.z p.content) := this
        subst hb
        unfold pdfGet
        rw [hgo (stream_delimitable (hs p hp hcn))]
        rfl
    have hgn := hget (c + 1) _ (by omega) ht (page_delimitable env.ord hord _ _ p (freePage_plain (hfree p hp)))
    rw [hgn] at hgs
    simp only [Option.some.injEq] at hgs
    subst hgs
    obtain ⟨x, fonts, k1, k2, k3⟩ := read_page fl (pdfGet ienv pdf') env.wenv.z unz env.ord hord (c + 1) b.pagesNum c p (hfree p hp) (by omega) (by omega)
      (hs p hp) hcs (hfont p hp)
    exact ⟨x, k1, fonts, k2, k3⟩
  -- the page read for each number
  have hread : ∀ n ∈ b.pages, ∃ s, pdfGet ienv pdf' n = some s := by
    intro n hn
    obtain ⟨p, _, c, _, hg⟩ := inOrder_mem h3 hn
    exact ⟨_, hg⟩
  let blank : XPage F := ⟨none, fl.zero, fl.zero, none, 0, none, [], [], [], []⟩
  let P : Int → XPage F := fun n => match pdfGet ienv pdf' n with
    | none => blank
    | some s => match page fl (pdfGet ienv pdf') unz n s with
      | .ok x => x
      | _ => blank
  have hP : ∀ n x s, pdfGet ienv pdf' n = some s → page fl (pdfGet ienv pdf') unz n s = .ok x → P n = x := by
    intro n x s hs hx
    simp only [P, hs, hx]
  have hall : ∀ (ns : List Int) (ps : List Builder.Page), InOrder (StoredPage env (finish b).w b.pagesNum) ns ps → InOrder (StoredData env (finish b).w) ns ps →
      (∀ n ∈ ns, n ∈ b.pages) → (∀ p ∈ ps, p ∈ log) →
      (∀ n ∈ ns, ∀ s, pdfGet ienv pdf' n = some s → page fl (pdfGet ienv pdf') unz n s = .ok (P n)) ∧
      InOrder (fun x p => ∃ fonts, AllStd fonts ∧
        x.mediaBox = rectOf ([b!"0", b!"0", p.width, p.height].filterMap fl.parse) ∧
        x.width = (match x.mediaBox with | some (a, _, c, _) => fl.sub c a | none => fl.zero) ∧
        x.height = (match x.mediaBox with | some (_, b, _, d) => fl.sub d b | none => fl.zero) ∧
        x.cropBox = none ∧ x.rotation = 0 ∧ x.annots = [] ∧
        x.texts = (parseContent fl.toFloats fonts p.content).texts ∧
        x.graphics = (parseContent fl.toFloats fonts p.content).graphics ∧
        x.images = (parseContent fl.toFloats fonts p.content).images) (ns.map P) ps := by
    intro ns ps hst
    induction hst with
    | nil => intro _ _ _; exact ⟨by simp, .nil⟩
    | @cons n p ns ps h0 _ ih =>
      intro hda hns hps
      cases hda with
      | cons hd0 hda =>
        obtain ⟨ih1, ih2⟩ := ih hda (fun m hm => hns m (by simp [hm])) (fun q hq => hps q (by simp [hq]))
        obtain ⟨s, hgs⟩ := hread n (hns n (by simp))
        obtain ⟨x, hx1, hx2⟩ := hpage n (hns n (by simp)) p (hps p (by simp)) h0 hd0 s hgs
        have e := hP n x s hgs hx1
        refine ⟨?_, ?_⟩
        · intro m hm t ht
          rcases List.mem_cons.1 hm with rfl | hm
          · rw [hgs] at ht
            simp only [Option.some.injEq] at ht
            subst ht
            rw [e]
            exact hx1
          · exact ih1 m hm t ht
        · rw [List.map_cons]
          refine .cons ?_ ih2
          rw [e]
          exact hx2
  obtain ⟨q1, q2⟩ := hall b.pages log hf.stored hxf.data (fun n hn => hn) (fun p hp => hp)
  exact ⟨pdf', b.pages.map P, N, h1, fun fuel hfu => extract_pages fl _ unz P pdf'.root fuel b.pages (h2 fuel hfu).2 q1, q2⟩

end Pdfer.Extract
