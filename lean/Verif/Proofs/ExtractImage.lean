import Verif.Proofs.ExtractDict
import Verif.Proofs.BuilderText
import Verif.Model.Image

/-! Images. -/

namespace Pdfer.Extract

open Pdfer.Go Pdfer.Manipulate Pdfer.Spec.Manipulate Pdfer.Spec.PageDict

variable {F : Type}

theorem reKeyNum_white {key w s : Bytes} {n : Nat} (hw0 : w ≠ []) (hw : ∀ c ∈ w, White c)
    (h : ∀ c, s.head? = some c → isDigit c = false) : reKeyNum key (key ++ (w ++ (natDec n ++ s))) = some (natDec n) := by
  unfold reKeyNum
  rw [reLit_append, Option.bind_some, reSp1_white hw0 (fun c hc => white_reSpace.1 (hw c hc)) ?_, Option.bind_some, reNum_natDec h]
  · rfl
  · intro c hc
    exact isDigit_not_reSpace (natDec_head n s c hc)

/-- The data of a stream whose dictionary says its length. -/
theorem imageStream_exact {s data : Bytes} (h0 : data ≠ []) (hl : s.length ≤ 9223372036854775807) (h : StreamIs s data) :
    imageStream s = .ok data := by
  obtain ⟨head, w, more, eol, tail, hhead, hw0, hw, hmore, hstream, heol, rfl⟩ := h
  generalize hH : head ++ b!"/Length" ++ w ++ natDec data.length ++ more = H at hstream hl
  have e : H ++ b!"stream" ++ eol ++ data ++ tail = H ++ ((115 :: b!"tream") ++ (eol ++ data ++ tail)) := by simp
  have hi : index b!"stream" (H ++ ((115 :: b!"tream") ++ (eol ++ data ++ tail))) = some H.length :=
    index_first (by decide) (noOcc_iff_infix.2 hstream)
  have hlen : ((searchWith (reKeyNum b!"/Length") H).map atoiClamp).getD 0 = data.length := by
    have e2 : H = head ++ (b!"/Length" ++ (w ++ (natDec data.length ++ more))) := by rw [← hH]; simp
    rw [e2, searchWith_first (c := 47) (k := b!"Length") (fun s => XRefStream.reKeyNum_prefix) (by intro d hd; simp at hd; subst hd; decide)
      (noOcc_iff_infix.2 hhead), searchWith_here (reKeyNum_white hw0 hw ?_)]
    · simp only [Option.map_some, Option.getD_some]
      apply atoiClamp_natDec
      simp at hl
      omega
    · intro c hc
      have := hmore c hc
      simpa [isDigit] using this
  rw [e] at hl ⊢
  unfold imageStream
  rw [hi]
  simp only
  have ht : (H ++ ((115 :: b!"tream") ++ (eol ++ data ++ tail))).take H.length = H := by simp
  have hd : (H ++ ((115 :: b!"tream") ++ (eol ++ data ++ tail))).drop (H.length + 6) = eol ++ data ++ tail := by
    rw [← List.drop_drop, List.drop_left]
    rfl
  rw [ht, hd, hlen]
  have hr : (let r := eol ++ data ++ tail
      let r := if r.head?.any (· == 13) then r.drop 1 else r
      if r.head?.any (· == 10) then r.drop 1 else r) = data ++ tail := by
    rcases heol with rfl | rfl <;> rfl
  simp only at hr
  rw [hr]
  have hpos : 0 < data.length := List.length_pos_iff.2 h0
  rw [if_neg ?_, if_pos ⟨hpos, by simp⟩, List.take_left]
  simp at hl ⊢
  omega

theorem int_value {s k : Bytes} {r : Int} (hk : (47 : UInt8) ∉ k) (h : IntIs s (47 :: k) r) (h1 : -9223372036854775808 ≤ r)
    (h2 : r ≤ 9223372036854775807) : intValue s (47 :: k) = r := by
  obtain ⟨w, rest, hw0, hw, hr, pre, hpre, rfl⟩ := h
  have e : pre ++ (47 :: k) ++ (w ++ decimal r ++ rest) = pre ++ ((47 :: k) ++ (w ++ (itoa r ++ rest))) := by rw [itoa_decimal]; simp
  unfold intValue
  rw [e, xDict_value hk (noOcc_iff_infix.2 hpre) hw0 hw (itoa_token r) hr, atoi_itoa r h1 h2]
  rfl

/-! ### JPEG files written by AddJPEGImage -/

open Pdfer.Crypto (Avoid clash avoid_append avoid_clash avoid_head avoid_noOcc)
open Pdfer.Builder (wrapped)
open Pdfer.Incremental (not_mem_itoa)

theorem jpegDict_text (width height len : Nat) (cs : Bytes) (hcs : ∃ r, cs = 47 :: r) :
    Writer.formatDictionary (Image.jpegDict width height cs len) =
      b!"<</BitsPerComponent 8 /ColorSpace " ++ cs ++ b!" /Filter /DCTDecode /Height " ++ itoa height ++ b!" /Length " ++ itoa len ++
        b!" /Subtype /Image /Type /XObject /Width " ++ itoa width ++ b!" >>" := by
  obtain ⟨r, rfl⟩ := hcs
  have : itoa 8 = b!"8" := by decide
  simp [Writer.formatDictionary, Writer.formatDictOrd, Image.jpegDict, Writer.formatValue, Writer.formatEntries, Writer.formatPair,
    Writer.renderEntries, Writer.sortBy, Writer.insertBy, Writer.bytesLe, Writer.slashKey, this, List.isPrefixOf]

theorem header_space {data : Bytes} {width height : Nat} {cs : Bytes} (h : Image.parseJPEGHeader data = .ok (width, height, cs)) :
    (cs = b!"/DeviceGray" ∨ cs = b!"/DeviceRGB" ∨ cs = b!"/DeviceCMYK") ∧ width < 65536 ∧ height < 65536 := by
  have hf : ∀ r, Image.frameSize r = .ok (width, height, cs) →
      (cs = b!"/DeviceGray" ∨ cs = b!"/DeviceRGB" ∨ cs = b!"/DeviceCMYK") ∧ width < 65536 ∧ height < 65536 := by
    intro r hr
    unfold Image.frameSize at hr
    split at hr
    · simp only [Res.ok.injEq, Prod.mk.injEq] at hr
      obtain ⟨rfl, rfl, rfl⟩ := hr
      refine ⟨?_, ?_, ?_⟩
      · unfold Image.colourSpace
        split
        · exact .inl rfl
        · split
          · exact .inr (.inl rfl)
          · split
            · exact .inr (.inr rfl)
            · exact .inr (.inl rfl)
      all_goals
        rename_i h1 h2 w1 w2 n _
        have := h1.toNat_lt
        have := h2.toNat_lt
        have := w1.toNat_lt
        have := w2.toNat_lt
        unfold Image.be16
        omega
    · simp at hr
    · simp at hr
  have hs : ∀ fuel s, Image.jpegScan fuel s = .ok (width, height, cs) →
      (cs = b!"/DeviceGray" ∨ cs = b!"/DeviceRGB" ∨ cs = b!"/DeviceCMYK") ∧ width < 65536 ∧ height < 65536 := by
    intro fuel
    induction fuel with
    | zero => intro s hs; simp [Image.jpegScan] at hs
    | succ f ih =>
      intro s hs
      match s with
      | [] => simp [Image.jpegScan] at hs
      | [a] => simp [Image.jpegScan] at hs
      | a :: m :: r =>
        rw [Image.jpegScan] at hs
        split at hs
        · exact ih _ hs
        · split at hs
          · exact ih _ hs
          · split at hs
            · exact hf _ hs
            · split at hs
              · simp at hs
              · exact ih _ hs
  unfold Image.parseJPEGHeader at h
  split at h
  · exact hs _ _ h
  · simp at h

/-- The text of a JPEG image object, as it is read. -/
def jpegObject (n : Int) (width height : Nat) (cs data : Bytes) : Bytes :=
  wrapped n (Writer.formatDictionary (Image.jpegDict width height cs data.length) ++ b!"\nstream\n" ++ data ++ b!"\nendstream")

theorem key_first {s key a b : Bytes} (h : Avoid key a) (e : s = a ++ key ++ b) (hk : key ≠ []) : FirstKey s key b :=
  ⟨a, noOcc_iff_infix.1 (avoid_noOcc h hk), e⟩

theorem jpeg_readback (get : Int → Option Bytes) (unz : Bytes → Option Bytes) {n : Int} {width height : Nat} {cs data : Bytes}
    (hh : Image.parseJPEGHeader data = .ok (width, height, cs)) (hg : get n = some (jpegObject n width height cs data))
    (hl : (jpegObject n width height cs data).length ≤ 9223372036854775807) :
    imageData get unz n = .ok ⟨b!"/Im" ++ itoa n, width, height, b!"jpeg", cs, 8, b!"/DCTDecode", data⟩ := by
  obtain ⟨hcs, hw, hhe⟩ := header_space hh
  have hcs' : ∃ r, cs = 47 :: r := by rcases hcs with rfl | rfl | rfl <;> exact ⟨_, rfl⟩
  have h0 : data ≠ [] := by
    rintro rfl
    simp [Image.parseJPEGHeader] at hh
  have e : jpegObject n width height cs data = itoa n ++ (b!" 0 obj\n<</BitsPerComponent 8 /ColorSpace " ++ cs ++ b!" /Filter /DCTDecode /Height ") ++ itoa height ++
      b!" /Length " ++ itoa data.length ++ b!" /Subtype /Image /Type /XObject /Width " ++ itoa width ++ b!" >>\nstream\n" ++ data ++ b!"\nendstream\nendobj" := by
    unfold jpegObject wrapped
    rw [jpegDict_text _ _ _ _ hcs']
    simp
  have hnat : ∀ k : Nat, itoa (k : Int) = natDec k := by
    intro k
    simp [itoa]
  have hdec : ∀ k : Nat, itoa (k : Int) = decimal k := fun k => itoa_decimal _
  -- the keys before each value
  have hav : ∀ (key : Bytes), (∃ k, key = 47 :: k) → (∀ c ∈ [b!"/DeviceGray", b!"/DeviceRGB", b!"/DeviceCMYK"],
      clash key (b!" 0 obj\n<</BitsPerComponent 8 /ColorSpace " ++ c ++ b!" /Filter /DCTDecode /Height ") = true) →
      Avoid key (itoa n ++ (b!" 0 obj\n<</BitsPerComponent 8 /ColorSpace " ++ cs ++ b!" /Filter /DCTDecode /Height ") ++ itoa height) := by
    rintro key ⟨k, rfl⟩ hc
    refine avoid_append (avoid_append (avoid_head (not_mem_itoa n (by decide) (by decide))) (avoid_clash (hc cs ?_)))
      (avoid_head (not_mem_itoa _ (by decide) (by decide)))
    rcases hcs with rfl | rfl | rfl <;> simp
  have hstr : StreamIs (jpegObject n width height cs data) data := by
    refine ⟨itoa n ++ (b!" 0 obj\n<</BitsPerComponent 8 /ColorSpace " ++ cs ++ b!" /Filter /DCTDecode /Height ") ++ itoa height ++ b!" ", b!" ",
      b!" /Subtype /Image /Type /XObject /Width " ++ itoa width ++ b!" >>\n", b!"\n", b!"\nendstream\nendobj", ?_, by simp, ?_, ?_, ?_, .inl rfl, ?_⟩
    · apply noOcc_iff_infix.1
      exact avoid_noOcc (avoid_append (hav b!"/Length" ⟨_, rfl⟩ (by decide)) (avoid_clash (by decide))) (by decide)
    · intro c hc; simp at hc; subst hc; exact .inl rfl
    · intro c hc; simp at hc; subst hc; decide
    · apply noOcc_iff_infix.1
      refine avoid_noOcc ?_ (by decide)
      have h115 : ∀ k : Int, Avoid b!"stream" (itoa k) := fun k => avoid_head (not_mem_itoa _ (by decide) (by decide))
      have h1 : Avoid b!"stream" (b!" 0 obj\n<</BitsPerComponent 8 /ColorSpace " ++ cs ++ b!" /Filter /DCTDecode /Height ") := by
        rcases hcs with rfl | rfl | rfl <;> exact avoid_clash (by decide)
      have e3 : itoa n ++ (b!" 0 obj\n<</BitsPerComponent 8 /ColorSpace " ++ cs ++ b!" /Filter /DCTDecode /Height ") ++ itoa height ++ b!" " ++ b!"/Length" ++ b!" " ++
          natDec data.length ++ (b!" /Subtype /Image /Type /XObject /Width " ++ itoa width ++ b!" >>\n") =
        itoa n ++ (b!" 0 obj\n<</BitsPerComponent 8 /ColorSpace " ++ cs ++ b!" /Filter /DCTDecode /Height ") ++ itoa height ++ b!" /Length " ++
          itoa (data.length : Int) ++ b!" /Subtype /Image /Type /XObject /Width " ++ itoa width ++ b!" >>\n" := by rw [hnat data.length]; simp
      rw [e3]
      refine avoid_append (avoid_append (avoid_append (avoid_append (avoid_append (avoid_append (avoid_append (h115 _) h1) (h115 _)) ?_) (h115 _)) ?_) (h115 _)) ?_ <;>
        exact avoid_clash (by decide)
    · rw [e, hnat data.length]; simp
  have hfil : xDictValue (jpegObject n width height cs data) b!"/Filter" = b!"/DCTDecode" := by
    refine xDict_name (k := b!"Filter") (name := b!"DCTDecode") (by decide) (by decide) (by decide) (.inl ⟨b!" ", b!" /Height " ++ itoa height ++
      b!" /Length " ++ itoa data.length ++ b!" /Subtype /Image /Type /XObject /Width " ++ itoa width ++ b!" >>\nstream\n" ++ data ++ b!"\nendstream\nendobj", by decide, ?_, ?_, ?_⟩)
    · intro c hc; simp at hc; subst hc; exact .inl rfl
    · intro c hc; simp at hc; subst hc; exact .inl (.inl rfl)
    · refine key_first (a := itoa n ++ (b!" 0 obj\n<</BitsPerComponent 8 /ColorSpace " ++ cs ++ b!" ")) ?_ (by rw [e]; simp) (by decide)
      refine avoid_append (avoid_head (not_mem_itoa n (by decide) (by decide))) ?_
      rcases hcs with rfl | rfl | rfl <;> exact avoid_clash (by decide)
  have hcol : xDictValue (jpegObject n width height cs data) b!"/ColorSpace" = cs := by
    obtain ⟨name, hname, hn0, hnb⟩ : ∃ name, cs = 47 :: name ∧ name ≠ [] ∧ ∀ c ∈ name, nameByte c = true := by
      rcases hcs with rfl | rfl | rfl <;> exact ⟨_, rfl, by decide, by decide⟩
    rw [hname]
    refine xDict_name (k := b!"ColorSpace") (name := name) (by decide) hn0 hnb (.inl ⟨b!" ", b!" /Filter /DCTDecode /Height " ++ itoa height ++
      b!" /Length " ++ itoa data.length ++ b!" /Subtype /Image /Type /XObject /Width " ++ itoa width ++ b!" >>\nstream\n" ++ data ++ b!"\nendstream\nendobj", by decide, ?_, ?_, ?_⟩)
    · intro c hc; simp at hc; subst hc; exact .inl rfl
    · intro c hc; simp at hc; subst hc; exact .inl (.inl rfl)
    · refine key_first (a := itoa n ++ b!" 0 obj\n<</BitsPerComponent 8 ") ?_ (by rw [← hname, e]; simp) (by decide)
      exact avoid_append (avoid_head (not_mem_itoa n (by decide) (by decide))) (avoid_clash (by decide))
  have hsp : ∀ x : Bytes, Ends (32 :: x) := by intro x c hc; simp at hc; subst hc; exact .inl (.inl rfl)
  have hwh : ∀ c ∈ b!" ", White c := by intro c hc; simp at hc; subst hc; exact .inl rfl
  have hbits : intValue (jpegObject n width height cs data) b!"/BitsPerComponent" = 8 := by
    refine int_value (k := b!"BitsPerComponent") (by decide) ⟨b!" ", b!" /ColorSpace " ++ cs ++ b!" /Filter /DCTDecode /Height " ++ itoa height ++
      b!" /Length " ++ itoa data.length ++ b!" /Subtype /Image /Type /XObject /Width " ++ itoa width ++ b!" >>\nstream\n" ++ data ++ b!"\nendstream\nendobj", by decide, hwh, hsp _, ?_⟩
      (by decide) (by decide)
    refine key_first (a := itoa n ++ b!" 0 obj\n<<") ?_ (by rw [e]; simp [decimal, natDec]; rfl) (by decide)
    exact avoid_append (avoid_head (not_mem_itoa n (by decide) (by decide))) (avoid_clash (by decide))
  have hheight : intValue (jpegObject n width height cs data) b!"/Height" = height := by
    refine int_value (k := b!"Height") (by decide) ⟨b!" ",
      b!" /Length " ++ itoa data.length ++ b!" /Subtype /Image /Type /XObject /Width " ++ itoa width ++ b!" >>\nstream\n" ++ data ++ b!"\nendstream\nendobj", by decide, hwh, hsp _, ?_⟩
      (by omega) (by omega)
    refine key_first (a := itoa n ++ (b!" 0 obj\n<</BitsPerComponent 8 /ColorSpace " ++ cs ++ b!" /Filter /DCTDecode ")) ?_ (by rw [e, hdec height]; simp) (by decide)
    refine avoid_append (avoid_head (not_mem_itoa n (by decide) (by decide))) ?_
    rcases hcs with rfl | rfl | rfl <;> exact avoid_clash (by decide)
  have hwidth : intValue (jpegObject n width height cs data) b!"/Width" = width := by
    refine int_value (k := b!"Width") (by decide) ⟨b!" ", b!" >>\nstream\n" ++ data ++ b!"\nendstream\nendobj", by decide, hwh, hsp _, ?_⟩
      (by omega) (by omega)
    refine key_first (a := (itoa n ++ (b!" 0 obj\n<</BitsPerComponent 8 /ColorSpace " ++ cs ++ b!" /Filter /DCTDecode /Height ") ++ itoa height) ++ b!" /Length " ++
      itoa data.length ++ b!" /Subtype /Image /Type /XObject ") ?_ (by rw [e, hdec width]; simp) (by decide)
    exact avoid_append (avoid_append (avoid_append (hav _ ⟨_, rfl⟩ (by decide)) (avoid_clash (by decide))) (avoid_head (not_mem_itoa _ (by decide) (by decide)))) (avoid_clash (by decide))
  unfold imageData
  rw [hg]
  simp only [Res.ofOption, Res.bind, imageStream_exact h0 hl hstr, hfil, hcol, hbits, hheight, hwidth]
  rw [if_neg h0]
  rfl

end Pdfer.Extract
