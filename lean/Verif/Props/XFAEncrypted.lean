import Verif.Model.XFAEncrypted
import Verif.Proofs.Document
import Verif.Proofs.XPages
import Verif.Proofs.XFAEncrypted
import Verif.Proofs.PageTree
import Verif.Proofs.Update

/-! C167: the XFA streams of an encrypted file. -/

namespace Pdfer.Props

open Pdfer.Go Pdfer.XFA Pdfer.Document Pdfer.Forms Pdfer.Incremental Pdfer.Spec Pdfer.Spec.XFA Pdfer.Crypto

/-! ### The object -/

/-- The object that is decrypted is the one `findObjectBoundaries` returns. -/
theorem C167_span (pdf : Bytes) (i n : Int) : (objectSpan pdf i n).bind (fun r => .ok r.2) = objectBytes pdf i n := by
  have bind2 : ∀ {α β γ : Type} (r : Res α) (f : α → Res β) (g : β → Res γ), (r.bind f).bind g = r.bind fun a => (f a).bind g := by
    intro α β γ r f g; cases r <;> rfl
  have ifb : ∀ {α β : Type} (p : Prop) [Decidable p] (a b : Res α) (g : α → Res β), (if p then a else b).bind g = if p then a.bind g else b.bind g := by
    intro α β p _ a b g; split <;> rfl
  have key : ∀ (x : Option Nat) (f : Nat → Res (Nat × Bytes)) (f' : Nat → Res Bytes) (g : Res (Nat × Bytes)) (g' : Res Bytes),
      (∀ p, (f p).bind (fun r => .ok r.2) = f' p) → g.bind (fun r => .ok r.2) = g' →
      (match x with | some p => f p | none => g).bind (fun r => .ok r.2) = match x with | some p => f' p | none => g' := by
    intro x f f' g g' h h'
    cases x
    · exact h'
    · exact h _
  unfold objectSpan objectBytes
  simp only [bind2]
  congr 1
  funext o
  have cut : ∀ start : Int, (if start < 0 ∨ start > pdf.length then (.panic : Res (Nat × Bytes))
      else (Res.ofOption (index b!"endobj" (pdf.drop start.toNat))).bind fun e => .ok (start.toNat, (pdf.drop start.toNat).take (e + 6))).bind (fun r => .ok r.2)
      = if start < 0 ∨ start > pdf.length then (.panic : Res Bytes)
      else (Res.ofOption (index b!"endobj" (pdf.drop start.toNat))).bind fun e => .ok ((pdf.drop start.toNat).take (e + 6)) := by
    intro start; rw [ifb, bind2]; rfl
  cases o with
  | some p => exact cut _
  | none =>
    cases index (itoa n ++ b!" 0 obj") pdf with
    | some p => exact cut _
    | none =>
      simp only [bind2]
      congr 1
      funext w
      refine key _ _ _ _ _ (fun p => cut _) ?_
      simp only [bind2]
      congr 1
      funext w5
      rw [ifb]
      split
      · exact cut _
      · rfl

/-! ### The guess at where the encrypted part begins -/

/-- The bytes from `k` on decrypt to something that looks like part of a PDF file. -/
structure Found (dec : Bytes → Option Bytes) (data : Bytes) (k : Nat) (d : Bytes) : Prop where
  near : k < 200
  blocks : 16 ∣ data.length - k
  enough : k + 16 ≤ data.length
  decrypts : dec (data.drop k) = some d
  some : d ≠ []
  looks : looksLikePDF d = true

theorem chunkAt_some (dec : Bytes → Option Bytes) (data : Bytes) (k : Nat) (hk : k < 200) (r : Bytes) :
    chunkAt dec data k = some r ↔ ∃ d, Found dec data k d ∧ r = data.take k ++ d := by
  unfold chunkAt
  constructor
  · intro h
    split at h
    · cases h
    · rename_i hc
      cases hd : dec (data.drop k) with
      | none => rw [hd] at h; cases h
      | some d =>
        rw [hd] at h
        simp only [Option.bind_some] at h
        split at h
        · rename_i hl
          cases h
          exact ⟨d, ⟨hk, by omega, by omega, hd, hl.1, hl.2⟩, rfl⟩
        · cases h
  · rintro ⟨d, h, rfl⟩
    have := h.enough
    have hb := h.blocks
    rw [if_neg (by omega), h.decrypts]
    simp only [Option.bind_some]
    rw [if_pos ⟨h.some, h.looks⟩]

/-- The first piece found. -/
theorem findSome_first {α : Type} (f : Nat → Option α) (n k : Nat) (a : α) (hk : k < n) (h : f k = some a) (hm : ∀ j < k, f j = none) :
    (List.range n).findSome? f = some a := by
  induction n with
  | zero => omega
  | succ n ih =>
    rw [List.range_succ, List.findSome?_append]
    by_cases hn : k < n
    · rw [ih hn]; rfl
    · have : k = n := by omega
      subst this
      rw [List.findSome?_eq_none_iff.mpr (by intro x hx; exact hm x (List.mem_range.mp hx))]
      simp [h]

/-- With AES the first of the first 200 offsets from which whole blocks are left that decrypt to something like a PDF file is taken for the
beginning of the encrypted part; without such an offset, and with RC4, everything is decrypted. -/
theorem C167_chunks (v : Int) (dec : Bytes → Option Bytes) (data : Bytes) :
    decryptInChunks v dec [] = some [] ∧
    (v ≠ 4 → v ≠ 5 → data ≠ [] → decryptInChunks v dec data = dec data) ∧
    (v = 4 ∨ v = 5 → ∀ k d, Found dec data k d → (∀ j < k, ∀ e, ¬ Found dec data j e) → decryptInChunks v dec data = some (data.take k ++ d)) ∧
    (v = 4 ∨ v = 5 → data ≠ [] → (∀ k d, ¬ Found dec data k d) → decryptInChunks v dec data = dec data) := by
  refine ⟨rfl, ?_, ?_, ?_⟩
  · intro h4 h5 h
    unfold decryptInChunks
    rw [if_neg h, if_neg (by omega)]
  · intro hv k d hf hm
    have he := hf.enough
    have hn := hf.near
    have hne : data ≠ [] := by rintro rfl; simp at he
    unfold decryptInChunks
    rw [if_neg hne, if_pos hv, findSome_first (chunkAt dec data) _ k (data.take k ++ d) (by omega)
      ((chunkAt_some dec data k hn _).mpr ⟨d, hf, rfl⟩)
      (by
        intro j hj
        cases hc : chunkAt dec data j with
        | none => rfl
        | some r =>
          obtain ⟨e, hf', _⟩ := (chunkAt_some dec data j (by omega) r).mp hc
          exact absurd hf' (hm j hj e))]
  · intro hv hne hn
    unfold decryptInChunks
    rw [if_neg hne, if_pos hv, List.findSome?_eq_none_iff.mpr]
    intro j hj
    have hj := List.mem_range.mp hj
    cases hc : chunkAt dec data j with
    | none => rfl
    | some r =>
      obtain ⟨e, hf', _⟩ := (chunkAt_some dec data j (by omega) r).mp hc
      exact absurd hf' (hn j e)

/-- What looks like part of a PDF file: a dictionary with one of six keys, or one of the first three keys and more than three tenths printable
bytes. -/
theorem C167_looks (d : Bytes) :
    looksLikePDF d = true ↔
      let key := b!"/XFA" <:+: d ∨ b!"/Fields" <:+: d ∨ b!"/AcroForm" <:+: d
      (b!"<<" <:+: d ∧ b!">>" <:+: d ∧ (key ∨ b!"/Type" <:+: d ∨ b!"/Subtype" <:+: d ∨ b!"/Kids" <:+: d)) ∨
      (key ∧ 3 * d.length < 10 * d.countP (fun b => 32 ≤ b.toNat ∧ b.toNat ≤ 126)) := by
  have hc : ∀ k : Bytes, contains d k = true ↔ k <:+: d := fun k => Pdfer.Manipulate.contains_iff d k
  have hsl : (b!"/XFA" <:+: d ∨ b!"/Fields" <:+: d ∨ b!"/AcroForm" <:+: d) → b!"/" <:+: d := by
    rintro (h | h | h)
    · exact (show b!"/" <:+: b!"/XFA" from ⟨[], b!"XFA", rfl⟩).trans h
    · exact (show b!"/" <:+: b!"/Fields" from ⟨[], b!"Fields", rfl⟩).trans h
    · exact (show b!"/" <:+: b!"/AcroForm" from ⟨[], b!"AcroForm", rfl⟩).trans h
  have hp : (d.filter fun b => 32 ≤ b && b < 127).length = d.countP (fun b => 32 ≤ b.toNat ∧ b.toNat ≤ 126) := by
    rw [List.countP_eq_length_filter]
    congr 2
    funext b
    have : ∀ b : UInt8, (32 ≤ b && b < 127) = decide (32 ≤ b.toNat ∧ b.toNat ≤ 126) := by
      apply forall_byte
      decide +kernel
    exact this b
  unfold looksLikePDF
  simp only [Bool.or_eq_true, Bool.and_eq_true, decide_eq_true_eq, hc, hp]
  constructor
  · rintro (⟨⟨h1, h2⟩, ⟨_, h3⟩ | h3⟩ | ⟨⟨_, h3⟩, h4⟩)
    · exact .inl ⟨h1, h2, .inl (by tauto)⟩
    · exact .inl ⟨h1, h2, .inr (by tauto)⟩
    · exact .inr ⟨by tauto, by omega⟩
  · rintro (⟨h1, h2, h3 | h3⟩ | ⟨h3, h4⟩)
    · exact .inl ⟨⟨h1, h2⟩, .inl ⟨hsl h3, by tauto⟩⟩
    · exact .inl ⟨⟨h1, h2⟩, .inr (by tauto)⟩
    · exact .inr ⟨⟨hsl h3, by tauto⟩, by omega⟩

/-- Some block found behind four other bytes. -/
example : Found (fun b => some (b.map (· ^^^ 1))) (b!"abcd" ++ (b!"<</XFA 1 0 R  >>").map (· ^^^ 1)) 4 b!"<</XFA 1 0 R  >>" :=
  ⟨by decide, by decide, by decide, by decide, by decide, by decide⟩

/-! ### What the decrypted object says, and what becomes of the caller's file -/

/-- Reading after appending. -/
theorem append_read (arr src : Bytes) (l : Nat) (h : l ≤ arr.length) :
    (XFA.append arr (.shared l) src).1.read (XFA.append arr (.shared l) src).2 = arr.take l ++ src := by
  unfold XFA.append
  simp only
  split
  · simp only [Buf.read]
    rw [List.take_append_of_le_length (by simp <;> omega), List.take_of_length_le (by simp <;> omega)]
  · rfl

/-- Appending within the array. -/
theorem append_inplace (arr src : Bytes) (l : Nat) (h : l + src.length ≤ arr.length) :
    XFA.append arr (.shared l) src = (.shared (l + src.length), arr.take l ++ src ++ arr.drop (l + src.length)) := by
  unfold XFA.append
  simp only
  rw [if_pos h]

/-- Two appends, read. -/
theorem append_read2 (arr a b : Bytes) (l : Nat) (h : l ≤ arr.length) :
    let s1 := XFA.append arr (.shared l) a
    let s2 := XFA.append s1.2 s1.1 b
    s2.1.read s2.2 = arr.take l ++ a ++ b := by
  dsimp only
  by_cases hf : l + a.length ≤ arr.length
  · rw [append_inplace arr a l hf]
    simp only
    rw [append_read _ _ _ (by simp; omega)]
    rw [List.take_append_of_le_length (by simp <;> omega), List.take_of_length_le (by simp <;> omega)]
  · have : XFA.append arr (.shared l) a = (.own (arr.take l ++ a), arr) := by
      unfold XFA.append
      simp only
      rw [if_neg hf]
    rw [this]
    rfl

/-- The array keeps its length and everything before the part that is appended to. -/
theorem append_keeps (arr src : Bytes) (l : Nat) (h : l ≤ arr.length) :
    (XFA.append arr (.shared l) src).2.length = arr.length ∧ (XFA.append arr (.shared l) src).2.take l = arr.take l := by
  unfold XFA.append
  simp only
  split
  · constructor
    · simp; omega
    · rw [List.append_assoc, List.take_append_of_le_length (by simp; omega), List.take_take, Nat.min_self]
  · exact ⟨rfl, rfl⟩

/-- An array with its bytes from `at` on replaced by `new`. -/
def overwrite (arr : Bytes) (at_ : Nat) (new : Bytes) : Bytes := arr.take at_ ++ new ++ arr.drop (at_ + new.length)

/-- The object found is a piece of the file. -/
def Piece (pdf : Bytes) (start : Nat) (obj : Bytes) : Prop := ∃ rest, pdf.drop start = obj ++ rest

theorem objectSpan_piece (pdf : Bytes) (i n : Int) (s : Nat) (o : Bytes) (h : objectSpan pdf i n = .ok (s, o)) :
    Piece pdf s o := by
  have window_piece : ∀ i d u s o, window pdf i d u = .ok (s, o) → Piece pdf s o := by
    intro i d u s o h
    unfold window at h
    simp only at h
    split at h
    · cases h
      refine ⟨pdf.drop (min (pdf.length : Int) (i + u)).toNat, ?_⟩
      rename_i hle
      have hh : (max 0 (i - d)).toNat ≤ (min (pdf.length : Int) (i + u)).toNat := by omega
      have hl : (min (pdf.length : Int) (i + u)).toNat ≤ pdf.length := by omega
      generalize (max 0 (i - d)).toNat = a at *
      generalize (min (pdf.length : Int) (i + u)).toNat = b at *
      have := congrArg (List.drop a) (List.take_append_drop b pdf).symm
      rwa [List.drop_append_of_le_length (by simp; omega)] at this
    · cases h
  have cut : ∀ start : Int, (if start < 0 ∨ start > pdf.length then (.panic : Res (Nat × Bytes))
      else (Res.ofOption (index b!"endobj" (pdf.drop start.toNat))).bind fun e => .ok (start.toNat, (pdf.drop start.toNat).take (e + 6))) = .ok (s, o) →
      Piece pdf s o := by
    intro start h
    split at h
    · cases h
    · cases he : index b!"endobj" (pdf.drop start.toNat) with
      | none => rw [he] at h; cases h
      | some e => rw [he] at h; cases h; exact ⟨_, (List.take_append_drop _ _).symm⟩
  have bok : ∀ {α β : Type} (r : Res α) (f : α → Res β) b, r.bind f = .ok b → ∃ a, r = .ok a ∧ f a = .ok b := by
    intro α β r f b h
    cases r with
    | ok a => exact ⟨a, rfl, h⟩
    | err => cases h
    | panic => cases h
  unfold objectSpan at h
  obtain ⟨o', _, h⟩ := bok _ _ _ h
  cases o' with
  | some p => exact cut _ h
  | none =>
    cases hx : index (itoa n ++ b!" 0 obj") pdf with
    | some p => simp only [hx] at h; exact cut _ h
    | none =>
      simp only [hx] at h
      obtain ⟨w, _, h⟩ := bok _ _ _ h
      split at h
      · exact cut _ h
      · obtain ⟨w5, _, h⟩ := bok _ _ _ h
        split at h
        · exact cut _ h
        · exact window_piece _ _ _ _ _ h

theorem piece_take (arr : Bytes) (len start : Nat) (obj : Bytes) (d : Nat) (h : Piece (arr.take len) start obj) (hd : d ≤ obj.length)
    (h0 : obj ≠ []) :
    start + d ≤ arr.length ∧ start + obj.length ≤ arr.length ∧ (arr.take (start + d)).drop start = obj.take d := by
  obtain ⟨rest, h⟩ := h
  have hl := congrArg List.length h
  simp only [List.length_drop, List.length_take, List.length_append] at hl
  have hpos : 0 < obj.length := List.length_pos_iff.mpr h0
  have h1 : start + obj.length ≤ min len arr.length := by omega
  refine ⟨by omega, by omega, ?_⟩
  have h2 := congrArg (List.take d) h
  rw [List.take_append_of_le_length hd] at h2
  rw [← h2, List.take_drop, List.take_take, Nat.min_eq_left (by omega)]

/-- Where the data of the object begin: behind `obj` and the white space after it. -/
def dataStart (obj : Bytes) (o : Nat) : Nat := o + 3 + ((obj.drop (o + 3)).takeWhile objWs).length

/-- An object without `stream`: the answer is the part before the data, the decrypted data and `endobj`.  The caller's file is overwritten with
them from the data on if its array is long enough. -/
theorem C167_content (xref : Bytes → Nat → Option (Map Int Int)) (v : Int) (dec : Decrypt) (arr : Bytes) (len : Nat) (n i : Int) (start o e : Nat)
    (obj t : Bytes) (hi : findObjectByNumber xref (arr.take len) n = some i) (hs : objectSpan (arr.take len) i n = .ok (start, obj))
    (hns : index b!"stream" obj = none) (ho : index b!"obj" obj = some o) (he : index b!"endobj" obj = some e)
    (hle : dataStart obj o ≤ e) (hel : e ≤ obj.length)
    (ht : decryptInChunks v (dec n (genNumber obj n)) ((obj.take e).drop (dataStart obj o)) = some t) :
    ∃ arr', decryptAcroForm xref v dec arr len n = .ok (obj.take (dataStart obj o) ++ t ++ b!"endobj", arr') ∧
      arr'.length = arr.length ∧ arr'.take (start + dataStart obj o) = arr.take (start + dataStart obj o) ∧
      (start + dataStart obj o + t.length + 6 ≤ arr.length → arr' = overwrite arr (start + dataStart obj o) (t ++ b!"endobj")) := by
  have h0 : obj ≠ [] := by
    rintro rfl
    have : index b!"obj" ([] : Bytes) = none := by decide
    rw [this] at ho
    cases ho
  obtain ⟨hd, _, hh⟩ := piece_take arr len start obj (dataStart obj o) (objectSpan_piece _ _ _ _ _ hs) (by omega) h0
  unfold decryptAcroForm
  simp only [hi, Res.ofOption, Res.bind, hs, hns, ho, he]
  rw [show o + 3 + ((obj.drop (o + 3)).takeWhile objWs).length = dataStart obj o from rfl]
  have hsl : slice obj (dataStart obj o) e = .ok ((obj.take e).drop (dataStart obj o)) := by
    unfold slice
    rw [if_pos ⟨hle, hel⟩]
  rw [hsl]
  simp only [ht]
  rw [if_pos (by simp)]
  have hr := append_read2 arr t b!"endobj" (start + dataStart obj o) hd
  simp only at hr
  refine ⟨(XFA.append (XFA.append arr (.shared (start + dataStart obj o)) t).2 (XFA.append arr (.shared (start + dataStart obj o)) t).1 b!"endobj").2, ?_, ?_, ?_, ?_⟩
  · rw [hr]
    simp only [Res.ok.injEq, Prod.mk.injEq, and_true]
    rw [List.append_assoc, List.drop_append_of_le_length (by simp; omega), hh, List.append_assoc]
  all_goals
    generalize hL : start + dataStart obj o = L at *
  · by_cases hf : L + t.length ≤ arr.length
    · rw [append_inplace arr t L hf]
      simp only
      rw [(append_keeps _ _ _ (by simp; omega)).1]
      simp; omega
    · unfold XFA.append
      simp only
      rw [if_neg hf]
  · by_cases hf : L + t.length ≤ arr.length
    · rw [append_inplace arr t L hf]
      simp only
      have := (append_keeps (arr.take L ++ t ++ arr.drop (L + t.length)) b!"endobj" (L + t.length) (by simp; omega)).2
      have := congrArg (List.take L) this
      rw [List.take_take, Nat.min_eq_left (by omega), List.take_take, Nat.min_eq_left (by omega)] at this
      rw [this, List.append_assoc, List.take_append_of_le_length (by simp; omega), List.take_take, Nat.min_self]
    · unfold XFA.append
      simp only
      rw [if_neg hf]
  · intro hc
    rw [append_inplace arr t L (by omega)]
    simp only
    rw [append_inplace _ _ _ (by simp; omega)]
    simp only [overwrite]
    have h6 : (b!"endobj" : Bytes).length = 6 := rfl
    rw [List.take_append_of_le_length (by simp <;> omega), List.take_of_length_le (by simp <;> omega)]
    rw [List.drop_append, List.drop_eq_nil_of_le (by simp; omega)]
    simp only [List.nil_append, List.drop_drop, List.length_append, List.length_take, h6, List.append_assoc]
    congr 4
    omega

/-- An object with `stream`: the answer is the part before the data, the decrypted dictionary and the rest of the object, if the decrypted
dictionary is not longer than the encrypted one; the caller's file is overwritten with them. -/
theorem C167_content_stream (xref : Bytes → Nat → Option (Map Int Int)) (v : Int) (dec : Decrypt) (arr : Bytes) (len : Nat) (n i : Int) (start o k : Nat)
    (obj t : Bytes) (hi : findObjectByNumber xref (arr.take len) n = some i) (hs : objectSpan (arr.take len) i n = .ok (start, obj))
    (hk : index b!"stream" obj = some k) (ho : index b!"obj" obj = some o) (hle : dataStart obj o ≤ k)
    (ht : decryptInChunks v (dec n (genNumber obj n)) ((obj.take k).drop (dataStart obj o)) = some t) (hl : dataStart obj o + t.length ≤ k) :
    decryptAcroForm xref v dec arr len n = .ok (obj.take (dataStart obj o) ++ t ++ obj.drop k,
      overwrite arr (start + dataStart obj o) (t ++ obj.drop k)) := by
  have hkl : k ≤ obj.length := by have := Pdfer.Document.index_bound hk; omega
  have h0 : obj ≠ [] := by
    rintro rfl
    have : index b!"obj" ([] : Bytes) = none := by decide
    rw [this] at ho
    cases ho
  have hp := objectSpan_piece _ _ _ _ _ hs
  obtain ⟨hd, hol, hh⟩ := piece_take arr len start obj (dataStart obj o) hp (by omega) h0
  have hall : (arr.drop start).take obj.length = obj := by
    have := (piece_take arr len start obj obj.length hp (Nat.le_refl _) h0).2.2
    rwa [List.take_length, List.drop_take, Nat.add_sub_cancel_left] at this
  unfold decryptAcroForm
  simp only [hi, Res.ofOption, Res.bind, hs, hk, ho]
  rw [show o + 3 + ((obj.drop (o + 3)).takeWhile objWs).length = dataStart obj o from rfl]
  have hsl : slice obj (dataStart obj o) k = .ok ((obj.take k).drop (dataStart obj o)) := by
    unfold slice
    rw [if_pos ⟨hle, hkl⟩]
  rw [hsl]
  simp only [ht]
  rw [append_inplace arr t _ (by omega)]
  simp only
  have hrest : ((arr.take (start + dataStart obj o) ++ t ++ arr.drop (start + dataStart obj o + t.length)).take (start + obj.length)).drop (start + k)
      = obj.drop k := by
    rw [List.drop_take]
    rw [List.drop_append, List.drop_eq_nil_of_le (by simp; omega), List.nil_append, List.drop_drop]
    conv_rhs => rw [← hall]
    rw [List.drop_take, List.drop_drop]
    congr 1
    · omega
    · congr 1
      simp only [List.length_append, List.length_take]
      omega
  rw [hrest, append_inplace _ _ _ (by simp only [List.length_append, List.length_take, List.length_drop]; omega)]
  simp only [Buf.read, overwrite]
  have e1 : (arr.take (start + dataStart obj o) ++ t ++ arr.drop (start + dataStart obj o + t.length)).take (start + dataStart obj o + t.length)
      = arr.take (start + dataStart obj o) ++ t := by
    rw [List.take_append_of_le_length (by simp <;> omega), List.take_of_length_le (by simp <;> omega)]
  rw [e1]
  congr 1
  refine Prod.ext ?_ ?_
  · simp only
    rw [List.take_append_of_le_length (by simp; omega), List.take_of_length_le (by simp; omega)]
    rw [List.append_assoc, List.drop_append_of_le_length (by simp; omega), hh, List.append_assoc]
  · simp only
    generalize obj.drop k = u
    generalize hL : start + dataStart obj o = L at *
    have e2 : (arr.take L ++ t ++ arr.drop (L + t.length)).drop (L + t.length + u.length) = arr.drop (L + (t ++ u).length) := by
      rw [List.drop_append, List.drop_eq_nil_of_le (by simp; omega)]
      simp only [List.nil_append, List.drop_drop, List.length_append, List.length_take]
      congr 1
      omega
    rw [e2]
    simp only [List.append_assoc]

/-! ### Failures -/

/-- The AcroForm of an encrypted file brings the program down exactly if the object cannot be cut out of the file or `stream` (without it,
`endobj`) stands before the end of the white space behind the first `obj`. -/
theorem C167_crash (xref : Bytes → Nat → Option (Map Int Int)) (v : Int) (dec : Decrypt) (arr : Bytes) (len : Nat) (n : Int) :
    decryptAcroForm xref v dec arr len n = .panic ↔
    ∃ i, findObjectByNumber xref (arr.take len) n = some i ∧ (objectSpan (arr.take len) i n = .panic ∨
      ∃ start obj o e, objectSpan (arr.take len) i n = .ok (start, obj) ∧ index b!"obj" obj = some o ∧ e < dataStart obj o ∧
        (index b!"stream" obj = some e ∨ index b!"stream" obj = none ∧ index b!"endobj" obj = some e)) := by
  have cutOk : ∀ (obj : Bytes) (d e : Nat), e ≤ obj.length → ∀ {α : Type} (f : Bytes → Res α), (∀ b, f b ≠ .panic) →
      ((slice obj d e).bind f = .panic ↔ e < d) := by
    intro obj d e he α f hf
    unfold slice
    by_cases hd : d ≤ e
    · rw [if_pos ⟨hd, he⟩]
      exact ⟨fun h => absurd h (hf _), fun h => by omega⟩
    · rw [if_neg (fun h => hd h.1)]
      exact ⟨fun _ => by omega, fun _ => rfl⟩
  have rb : ∀ {α β : Type} (a : α) (f : α → Res β), (Res.ok a).bind f = f a := fun _ _ => rfl
  have re : ∀ {α β : Type} (f : α → Res β), (Res.err : Res α).bind f = .err := fun _ => rfl
  have rp : ∀ {α β : Type} (f : α → Res β), (Res.panic : Res α).bind f = .panic := fun _ => rfl
  unfold decryptAcroForm
  cases hi : findObjectByNumber xref (arr.take len) n with
  | none => simp only [hi, Res.ofOption, re]; simp
  | some i =>
    simp only [hi, Res.ofOption, rb, Option.some.injEq, exists_eq_left']
    cases hs : objectSpan (arr.take len) i n with
    | panic => simp only [rp]; simp
    | err => simp only [re]; simp
    | ok r =>
      obtain ⟨start, obj⟩ := r
      simp only [rb, Res.ok.injEq, Prod.mk.injEq, reduceCtorEq, false_or]
      cases hk : index b!"stream" obj with
      | some k =>
        have hkl : k ≤ obj.length := by have := Pdfer.Document.index_bound hk; omega
        simp only
        rw [cutOk obj _ k hkl _ (by intro b; split <;> simp)]
        constructor
        · intro h
          cases ho : index b!"obj" obj with
          | none => rw [ho] at h; simp at h
          | some o => rw [ho] at h; exact ⟨start, obj, o, k, ⟨rfl, rfl⟩, ho, h, .inl hk⟩
        · rintro ⟨_, _, o, e, ⟨rfl, rfl⟩, ho, he, h | h⟩
          · rw [hk] at h; cases h
            rw [ho]; exact he
          · rw [hk] at h; cases h.1
      | none =>
        simp only
        cases he : index b!"endobj" obj with
        | some e =>
          have hel : e ≤ obj.length := by have := Pdfer.Document.index_bound he; omega
          simp only
          rw [cutOk obj _ e hel _ (by intro b; split <;> [simp; (split <;> simp)])]
          constructor
          · intro h
            cases ho : index b!"obj" obj with
            | none => rw [ho] at h; simp at h
            | some o => rw [ho] at h; exact ⟨start, obj, o, e, ⟨rfl, rfl⟩, ho, h, .inr ⟨hk, he⟩⟩
          · rintro ⟨_, _, o, e', ⟨rfl, rfl⟩, ho, hlt, h | h⟩
            · rw [hk] at h; cases h
            · rw [he] at h; cases h.2
              rw [ho]; exact hlt
        | none =>
          simp only
          constructor
          · intro h
            exfalso
            revert h
            split
            · split <;> [(split <;> simp); simp]
            · split <;> simp
          · rintro ⟨_, _, o, e', ⟨rfl, rfl⟩, ho, hlt, h | h⟩
            · rw [hk] at h; cases h
            · rw [he] at h; cases h.2

/-- If the AcroForm is read in the regular way, the caller's file is not touched. -/
theorem C167_file_kept_partial (src : Src) (v : Int) (dec : Decrypt) (arr : Bytes) (len : Nat) (n : Int) (ds o : Bytes)
    (hr : searchWith reAcroForm (arr.take len) = some ds) (hn : atoi ds = some n) (hp : 0 < n)
    (ho : getObject src.unz (some dec) (arr.take len) n = .ok o) (m : Map Bytes Info) (arr' : Bytes)
    (h : extractAllEnc src v dec arr len = .ok (m, arr')) : arr' = arr := by
  unfold extractAllEnc at h
  simp only [hr, hn, Res.ofOption, Res.bind, hp, if_true, ho] at h
  cases hx : xfaArray o with
  | none => simp [hx] at h
  | some a =>
    simp only [hx] at h
    split at h
    · cases h
    · generalize streamLoopEnc src dec (arr.take len) [] (findAll reStreamRef 0 a) = r at h
      cases r with
      | ok m' => cases h; rfl
      | err => cases h
      | panic => cases h

/-! ### Witnesses -/

/-- A cipher that can be followed by hand: every byte with its last bit turned. -/
def turnBits : Decrypt := fun _ _ d => some (d.map (· ^^^ 1))

/-- No compressed streams. -/
def noStreams : Src := ⟨fun _ => none, fun _ _ => none, ⟨fun _ => none, fun _ => none, id⟩⟩

/-- An encrypted file whose end is lost. -/
def damagedFile : Bytes :=
  b!"%PDF-1.7\n1 0 obj\n<</AcroForm 5 0 R>>\nendobj\n5 0 obj\n" ++ b!"<</XFA[(datasets)6 0 R]>>\n".map (· ^^^ 1) ++
  b!"endobj\n6 0 obj\n<</Length 4>>\nstream\n" ++ b!"<d/>".map (· ^^^ 1) ++ b!"\nendstream\nendobj\n"

/-- An encrypted file whose objects are separated by spaces. -/
def oneLineFile : Bytes :=
  b!"%PDF-1.7\n1 0 obj <</AcroForm 5 0 R>> endobj 6 0 obj <</Length 4>> stream\n" ++ b!"<d/>".map (· ^^^ 1) ++
  b!"\nendstream endobj 5 0 obj " ++ b!"<</XFA[(datasets)6 0 R]>>\n".map (· ^^^ 1) ++ b!"endobj "

/-- Whether there is an answer, and what it says of the file. -/
def answer (r : Res (Map Bytes Info × Bytes)) (p : Map Bytes Info → Bytes → Bool) : Bool :=
  match r with | .ok (m, a) => p m a | _ => false

/-- Whether it ends with an error. -/
def isErr {α : Type} (r : Res α) : Bool := match r with | .err => true | _ => false

/-- Whether the program comes down. -/
def isPanic {α : Type} (r : Res α) : Bool := match r with | .panic => true | _ => false

/-- Reading the XFA streams of a damaged encrypted file writes the decrypted AcroForm over the caller's bytes: the file that was passed in has
another content afterwards. -/
theorem C167_file_changed_violated :
    ¬ ∀ (src : Src) (v : Int) (dec : Decrypt) (arr : Bytes) (m : Map Bytes Info) (arr' : Bytes),
      extractAllEnc src v dec arr arr.length = .ok (m, arr') → arr' = arr := by
  intro h
  have hw : answer (extractAllEnc noStreams 2 turnBits damagedFile damagedFile.length) (fun _ a => decide (a ≠ damagedFile)) = true := by
    decide +kernel
  cases hr : extractAllEnc noStreams 2 turnBits damagedFile damagedFile.length with
  | ok r =>
    obtain ⟨m, a⟩ := r
    rw [hr] at hw
    have := h noStreams 2 turnBits damagedFile m a hr
    simp [answer, this] at hw
  | err => rw [hr] at hw; simp [answer] at hw
  | panic => rw [hr] at hw; simp [answer] at hw

/-- Reading the XFA streams of the same bytes a second time fails, although the first time succeeded. -/
theorem C167_twice_violated :
    ∃ (src : Src) (v : Int) (dec : Decrypt) (arr : Bytes) (m : Map Bytes Info) (arr' : Bytes),
      extractAllEnc src v dec arr arr.length = .ok (m, arr') ∧ m.map (fun e => (e.1, e.2.data)) = [(b!"datasets", b!"<d/>")] ∧
      extractAllEnc src v dec arr' arr.length = .err := by
  have hw : answer (extractAllEnc noStreams 2 turnBits damagedFile damagedFile.length) (fun m a =>
      decide (m.map (fun e => (e.1, e.2.data)) = [(b!"datasets", b!"<d/>")]) && isErr (extractAllEnc noStreams 2 turnBits a damagedFile.length)) = true := by
    decide +kernel
  cases hr : extractAllEnc noStreams 2 turnBits damagedFile damagedFile.length with
  | ok r =>
    obtain ⟨m, a⟩ := r
    rw [hr] at hw
    simp only [answer, Bool.and_eq_true, decide_eq_true_eq] at hw
    refine ⟨noStreams, 2, turnBits, damagedFile, m, a, hr, hw.1, ?_⟩
    cases h2 : extractAllEnc noStreams 2 turnBits a damagedFile.length with
    | ok r => rw [h2] at hw; simp [isErr] at hw
    | err => rfl
    | panic => rw [h2] at hw; simp [isErr] at hw
  | err => rw [hr] at hw; simp [answer] at hw
  | panic => rw [hr] at hw; simp [answer] at hw

/-- A file whose AcroForm shares its line with the stream of another object brings the program down. -/
theorem C167_crash_violated :
    ∃ (src : Src) (v : Int) (dec : Decrypt) (arr : Bytes), extractAllEnc src v dec arr arr.length = .panic := by
  have hw : isPanic (extractAllEnc noStreams 2 turnBits oneLineFile oneLineFile.length) = true := by decide +kernel
  refine ⟨noStreams, 2, turnBits, oneLineFile, ?_⟩
  cases h : extractAllEnc noStreams 2 turnBits oneLineFile oneLineFile.length with
  | ok r => rw [h] at hw; simp [isPanic] at hw
  | err => rw [h] at hw; simp [isPanic] at hw
  | panic => rfl

/-- The hypotheses of `C167_content` are met by the AcroForm of the damaged file. -/
example : ∃ i start obj o e t, findObjectByNumber (fun _ _ => none) (damagedFile.take damagedFile.length) 5 = some i ∧
    objectSpan (damagedFile.take damagedFile.length) i 5 = .ok (start, obj) ∧ index b!"stream" obj = none ∧ index b!"obj" obj = some o ∧
    index b!"endobj" obj = some e ∧ dataStart obj o ≤ e ∧ e ≤ obj.length ∧
    decryptInChunks 2 (turnBits 5 (genNumber obj 5)) ((obj.take e).drop (dataStart obj o)) = some t ∧ t = b!"<</XFA[(datasets)6 0 R]>>\n" := by
  refine ⟨44, 44, b!"5 0 obj\n" ++ b!"<</XFA[(datasets)6 0 R]>>\n".map (· ^^^ 1) ++ b!"endobj", 4, 34, b!"<</XFA[(datasets)6 0 R]>>\n", ?_⟩
  decide +kernel

/-! ### The generation -/

/-- The generation of the header is found: `n g obj` at the beginning of the object. -/
theorem C167_generation_partial (n : Int) (g : Nat) (hg : g ≤ 9223372036854775807) (rest : Bytes) :
    genNumber (itoa n ++ (b!" " ++ (natDec g ++ (b!" obj" ++ rest)))) n = g := by
  have h : reGen n (itoa n ++ (b!" " ++ (natDec g ++ (b!" obj" ++ rest)))) = some (natDec g) := by
    unfold reGen
    rw [reLit_append, Option.bind_some]
    rw [show (b!" " ++ (natDec g ++ (b!" obj" ++ rest)) : Bytes) = 32 :: (natDec g ++ (32 :: (b!"obj" ++ rest))) from rfl]
    rw [reSp1_one (fun c hc => isDigit_not_reSpace (natDec_head g _ c hc)), Option.bind_some,
      reNum_natDec (by intro c hc; simp at hc; subst hc; decide), Option.bind_some,
      reSp1_one (by intro c hc; simp at hc; subst hc; decide), Option.bind_some, reLit_append]
    rfl
  have hs : searchWith (reGen n) (itoa n ++ (b!" " ++ (natDec g ++ (b!" obj" ++ rest)))) = some (natDec g) := by
    generalize itoa n ++ (b!" " ++ (natDec g ++ (b!" obj" ++ rest))) = s at *
    cases s with
    | nil => exact h
    | cons c s => simp only [searchWith, h]
  unfold genNumber genIn
  rw [hs, Option.bind_some, atoiMag_natDec g hg]

/-- Without the number of the object the generation is 0. -/
theorem C167_generation_none (obj : Bytes) (n : Int) (h : ¬ itoa n <:+: obj) : genNumber obj n = 0 := by
  have hno : ∀ s : Bytes, s <:+: obj → NoOcc (itoa n) s := fun s hs => Pdfer.Manipulate.noOcc_iff_infix.mpr fun hi => h (hi.trans hs)
  have p1 : ∀ s, reGen n s ≠ none → itoa n <+: s := by
    intro s hs
    apply reLit_prefix
    intro hn
    unfold reGen at hs
    rw [hn] at hs
    exact hs rfl
  have p2 : ∀ s, reGenLoose n s ≠ none → itoa n <+: s := by
    intro s hs
    apply reLit_prefix
    intro hn
    unfold reGenLoose at hs
    rw [hn] at hs
    exact hs rfl
  have hg : ∀ s : Bytes, s <:+: obj → genIn n s = none := by
    intro s hs
    unfold genIn
    rw [searchWith_none p1 (hno s hs), searchWith_none p2 (hno s hs)]
    rfl
  unfold genNumber
  rw [hg obj (List.infix_refl _), hg (obj.take 500) (List.take_prefix _ _).isInfix]
  simp

/-- Bytes in which the number does not occur. -/
example : ¬ itoa 7 <:+: b!"(abc)endobj" := by decide

/-- Object 7 of generation 3. -/
example : genNumber b!"7 3 obj\n(abc)endobj" 7 = 3 := by decide +kernel

/-- Looking for the number anywhere in the object finds others': with object 15 before it on the same line, object 5 gets the generation of
object 15. -/
theorem C167_generation_violated : genNumber b!"15 2 obj null endobj 5 0 obj (abc) endobj" 5 = 2 := by decide +kernel

/-! ### Whole objects -/

/-- An AcroForm that is encrypted as a whole and stands on lines of its own is decrypted as a whole, with the generation 0 of its header. -/
theorem C167_object_partial (xref : Bytes → Nat → Option (Map Int Int)) (v : Int) (dec : Decrypt) (A B body t : Bytes) (n : Nat)
    (hn : n ≤ 9223372036854775807) (hv : v ≠ 4 ∧ v ≠ 5) (hA : A = [] ∨ A.getLast? = some 10)
    (hb : Absent b!"endobj" body) (hs : Absent b!"stream" body) (hw : ∀ c, body.head? = some c → objWs c = false) (h0 : body ≠ [])
    (hfirst : index (itoa (n : Int) ++ b!" 0 obj") (A ++ (itoa (n : Int) ++ b!" 0 obj\n" ++ body ++ b!"\nendobj" ++ B)) = some A.length)
    (ht : dec n 0 (body ++ b!"\n") = some t) :
    ∃ arr', decryptAcroForm xref v dec (A ++ (itoa (n : Int) ++ b!" 0 obj\n" ++ body ++ b!"\nendobj" ++ B))
      (A ++ (itoa (n : Int) ++ b!" 0 obj\n" ++ body ++ b!"\nendobj" ++ B)).length n =
      .ok (itoa (n : Int) ++ b!" 0 obj\n" ++ t ++ b!"endobj", arr') := by
  have hspan := objectSpan_line A B body n hn hA hb hfirst
  generalize hP : A ++ (itoa (n : Int) ++ b!" 0 obj\n" ++ body ++ b!"\nendobj" ++ B) = P at *
  generalize hO : itoa (n : Int) ++ b!" 0 obj\n" ++ body ++ b!"\nendobj" = O at *
  have hi : findObjectByNumber xref (P.take P.length) n = some (A.length : Int) := by
    unfold findObjectByNumber
    rw [List.take_length, hfirst]
  have eo : index b!"obj" O = some ((itoa (n : Int)).length + 3) := by
    rw [← hO, show itoa (n : Int) ++ b!" 0 obj\n" ++ body ++ b!"\nendobj" = (itoa (n : Int) ++ b!" 0 ") ++ (b!"obj" ++ (10 :: (body ++ b!"\nendobj"))) by simp]
    rw [index_avoid (avoid_append (avoid_head (not_mem_itoa _ (by decide) (by decide))) (avoid_clash (by decide))), idx_here _ _ (by decide)]
    simp
  have ee : index b!"endobj" O = some ((itoa (n : Int) ++ b!" 0 obj\n" ++ body ++ b!"\n").length) := by
    rw [← hO, show itoa (n : Int) ++ b!" 0 obj\n" ++ body ++ b!"\nendobj" = (itoa (n : Int) ++ b!" 0 obj\n" ++ (body ++ b!"\n")) ++ (b!"endobj" ++ []) by simp]
    rw [index_avoid (avoid_append (avoid_append (avoid_head (not_mem_itoa _ (by decide) (by decide))) (avoid_clash (by decide)))
      (data_avoid (by decide) (by decide) hb)), idx_here _ _ (by decide)]
    simp
  have es : index b!"stream" O = none := by
    rw [← hO, show itoa (n : Int) ++ b!" 0 obj\n" ++ body ++ b!"\nendobj" = (itoa (n : Int) ++ b!" 0 obj\n" ++ (body ++ b!"\n")) ++ b!"endobj" by simp]
    rw [index_avoid (avoid_append (avoid_append (avoid_head (not_mem_itoa _ (by decide) (by decide))) (avoid_clash (by decide)))
      (data_avoid (by decide) (by decide) hs))]
    rw [show index b!"stream" (b!"endobj" : Bytes) = none by decide]
    rfl
  have ed : dataStart O ((itoa (n : Int)).length + 3) = (itoa (n : Int) ++ b!" 0 obj\n").length := by
    unfold dataStart
    have : O.drop ((itoa (n : Int)).length + 3 + 3) = 10 :: (body ++ b!"\nendobj") := by
      rw [← hO, show itoa (n : Int) ++ b!" 0 obj\n" ++ body ++ b!"\nendobj" = (itoa (n : Int) ++ b!" 0 obj") ++ (10 :: (body ++ b!"\nendobj")) by simp]
      exact List.drop_left' (by simp)
    rw [this]
    cases body with
    | nil => exact absurd rfl h0
    | cons c r =>
      have := hw c rfl
      rw [List.takeWhile_cons_of_pos (by decide), List.cons_append, List.takeWhile_cons_of_neg (by simp [this])]
      simp
  have edata : (O.take (itoa (n : Int) ++ b!" 0 obj\n" ++ body ++ b!"\n").length).drop (itoa (n : Int) ++ b!" 0 obj\n").length = body ++ b!"\n" := by
    rw [← hO, show itoa (n : Int) ++ b!" 0 obj\n" ++ body ++ b!"\nendobj" = (itoa (n : Int) ++ b!" 0 obj\n" ++ body ++ b!"\n") ++ b!"endobj" by simp]
    rw [List.take_left' rfl, List.append_assoc, List.drop_left' rfl]
  have eg : genNumber O n = 0 := by
    have := C167_generation_partial n 0 (by omega) (10 :: (body ++ b!"\nendobj"))
    rw [← hO]
    convert this using 2
    simp [show natDec 0 = [48] from rfl]
  obtain ⟨arr', h, _⟩ := C167_content xref v dec P P.length n A.length A.length _ _ O t hi (by rw [List.take_length]; exact hspan) es eo ee
    (by rw [ed]; simp) (by rw [← hO]; simp)
    (by
      rw [ed, edata, eg]
      rw [(C167_chunks v (dec n 0) (body ++ b!"\n")).2.1 hv.1 hv.2 (by simp)]
      exact ht)
  refine ⟨arr', ?_⟩
  rw [h, ed, ← hO]
  congr 2
  rw [show itoa (n : Int) ++ b!" 0 obj\n" ++ body ++ b!"\nendobj" = (itoa (n : Int) ++ b!" 0 obj\n") ++ (body ++ b!"\nendobj") by simp, List.take_left' rfl]

/-- The damaged file meets the hypotheses. -/
example : index (itoa 5 ++ b!" 0 obj") damagedFile = some (damagedFile.take 44).length ∧ (damagedFile.take 44).getLast? = some 10 ∧
    turnBits 5 0 (b!"<</XFA[(datasets)6 0 R]>>".map (· ^^^ 1) ++ b!"\n") ≠ none := by decide +kernel

/-- A stream that is read from its place in the file, because the cross-reference table is lost, is decrypted with its number and the
generation 0 of its header. -/
theorem C167_old_stream_partial (xref : Bytes → Nat → Option (Map Int Int)) (dec : Decrypt) (A B s : Bytes) (c : Bool) (n : Nat)
    (hn : n ≤ 9223372036854775807)
    (hA : A = [] ∨ A.getLast? = some 10) (h0 : s ≠ []) (h1 : Absent b!"endobj" s)
    (hl : (A ++ (itoa (n : Int) ++ b!" 0 obj\n" ++ streamText c s ++ b!"\nendobj" ++ B)).length ≤ 9223372036854775807)
    (hb : Absent b!"endobj" (streamText c s))
    (hfirst : index (itoa (n : Int) ++ b!" 0 obj") (A ++ (itoa (n : Int) ++ b!" 0 obj\n" ++ streamText c s ++ b!"\nendobj" ++ B)) = some A.length) :
    oldStreamEnc xref dec (A ++ (itoa (n : Int) ++ b!" 0 obj\n" ++ streamText c s ++ b!"\nendobj" ++ B)) n = Res.ofOption (dec n 0 s) := by
  have h := oldStream_line xref A B s c n hn hA h0 h1 hl hb hfirst
  have ho := objectBytes_line A B _ n hn hA hb hfirst
  have eg : genNumber (itoa (n : Int) ++ b!" 0 obj\n" ++ streamText c s ++ b!"\nendobj") n = 0 := by
    have := C167_generation_partial n 0 (by omega) (10 :: (streamText c s ++ b!"\nendobj"))
    convert this using 2
    simp [show natDec 0 = [48] from rfl]
  unfold oldStreamEnc findObjectByNumber
  rw [hfirst]
  simp only [Res.ofOption, Res.bind]
  rw [ho]
  simp only
  rw [h]
  simp only [eg]

/-- A damaged file whose encrypted AcroForm says, when decrypted, that it is followed by another object 6. -/
def shadowFile : Bytes :=
  b!"%PDF-1.7\n1 0 obj\n<</AcroForm 5 0 R>>\nendobj\n5 0 obj\n" ++
  b!"<</XFA[(datasets)6 0 R]>>\n6 0 obj\n<</Length 1>>\nstream\nx\nendstream\nendobj\n".map (· ^^^ 1) ++
  b!"endobj\n6 0 obj\n<</Length 4>>\nstream\n" ++ b!"<d/>".map (· ^^^ 1) ++ b!"\nendstream\nendobj\n"

/-- The streams are read from the file as it is after the AcroForm has been written over it: the bytes of the AcroForm are taken for the stream
of another object. -/
theorem C167_shadow_violated :
    answer (extractAllEnc noStreams 2 turnBits shadowFile shadowFile.length) (fun m _ =>
      decide (m.map (fun e => (e.1, e.2.data)) = [(b!"datasets", b!"y")])) = true := by
  decide +kernel

/-- An encrypted file as the standard has it, strings and streams encrypted and dictionaries in the clear, whose end is lost. -/
def standardFile : Bytes :=
  b!"%PDF-1.7\n1 0 obj\n<</AcroForm 5 0 R>>\nendobj\n5 0 obj\n<</XFA[(" ++ b!"datasets".map (· ^^^ 1) ++ b!")6 0 R]>>\n" ++
  b!"endobj\n6 0 obj\n<</Length 4>>\nstream\n" ++ b!"<d/>".map (· ^^^ 1) ++ b!"\nendstream\nendobj\n"

/-- The dictionary of the AcroForm is decrypted although only strings and streams are encrypted: the streams the dictionary names in the clear
are not found. -/
theorem C167_standard_violated :
    (∃ a, xfaArray standardFile = some a) ∧ extractAllEnc noStreams 2 turnBits standardFile standardFile.length = .err := by
  have hw : isErr (extractAllEnc noStreams 2 turnBits standardFile standardFile.length) = true := by decide +kernel
  constructor
  · exact Option.isSome_iff_exists.mp (by decide +kernel)
  · cases h2 : extractAllEnc noStreams 2 turnBits standardFile standardFile.length with
    | ok r => rw [h2] at hw; simp [isErr] at hw
    | err => rfl
    | panic => rw [h2] at hw; simp [isErr] at hw

end Pdfer.Props
