import Verif.Model.PDFStream
import Verif.Proofs.XFARebuild

/-! C112, C113: the byte stream of the XFA package and reading an object through it. -/

namespace Pdfer.Props

open Pdfer.Go Pdfer.PDFStream Pdfer.Spec

/-- A stream on data that a Go program can hold, at a place in it. -/
def OnData (s : Stream) : Prop := 0 ≤ s.offset ∧ s.offset ≤ s.data.length ∧ (s.data.length : Int) ≤ 9223372036854775807

/-- A call that a reader makes: a read or a peek of at most as many bytes as fit behind any position. -/
def Sensible (s : Stream) : Call → Prop
  | .read n => 0 ≤ n ∧ n + s.data.length ≤ 9223372036854775807
  | .peek n => 0 ≤ n ∧ n + s.data.length ≤ 9223372036854775807
  | _ => True

theorem wrap_id {x : Int} (h1 : -9223372036854775808 ≤ x) (h2 : x ≤ 9223372036854775807) : wrap x = x := by
  unfold wrap; omega

theorem seek_on (s : Stream) (o : Int) (w : Nat) (h : OnData s) : OnData (seek s o w) ∧ (seek s o w).data = s.data := by
  obtain ⟨h1, h2, h3⟩ := h
  refine ⟨?_, rfl⟩
  unfold OnData seek
  simp only
  generalize (match w with | 0 => o | 1 => wrap (s.offset + o) | 2 => wrap (s.data.length + o) | _ => s.offset) = x
  refine ⟨?_, ?_, h3⟩ <;> split <;> split <;> omega

theorem read_eq (s : Stream) (n : Int) (h : OnData s) (hn : 0 ≤ n) (hm : n + s.data.length ≤ 9223372036854775807) :
    PDFStream.read s n = if s.offset = s.data.length then .err else
      .ok ((s.data.drop s.offset.toNat).take n.toNat, { s with offset := min (s.offset + n) s.data.length }) := by
  obtain ⟨h1, h2, h3⟩ := h
  unfold PDFStream.read
  rw [wrap_id (by omega) (by omega)]
  by_cases he : s.offset = s.data.length
  · rw [if_pos (by omega), if_pos he]
  · rw [if_neg (by omega), if_neg he]
    simp only
    by_cases hc : s.offset + n > s.data.length
    · rw [if_pos hc, if_pos ⟨h1, by omega⟩]
      have e1 : min (s.offset + n) (s.data.length : Int) = s.data.length := by omega
      rw [e1]
      congr 2
      rw [List.take_of_length_le (by rw [List.length_drop]; omega), List.take_of_length_le (by rw [List.length_drop]; omega)]
    · rw [if_neg hc, if_pos ⟨h1, by omega⟩]
      have e1 : min (s.offset + n) (s.data.length : Int) = s.offset + n := by omega
      rw [e1, show (s.offset + n - s.offset).toNat = n.toNat by omega]

/-- C112 (partial: reads and peeks of a size that does not overflow): a stream always stands at a place in its data, whatever calls were made
on it in whatever order, with any offsets and origins of `Seek`; no call crashes, and the data stays the same. -/
theorem C112_safe_partial (cs : List Call) (s : Stream) (h : OnData s) (hc : ∀ c ∈ cs, Sensible s c) :
    ∃ s', calls s cs = .ok s' ∧ OnData s' ∧ s'.data = s.data := by
  induction cs generalizing s with
  | nil => exact ⟨s, rfl, h, rfl⟩
  | cons c cs ih =>
    have step : ∃ s1, call s c = .ok s1 ∧ OnData s1 ∧ s1.data = s.data := by
      have hs := hc c (by simp)
      cases c with
      | seek o w => exact ⟨_, rfl, seek_on s o w h⟩
      | read n =>
        unfold call
        simp only [read_eq s n h hs.1 hs.2]
        obtain ⟨h1, h2, h3⟩ := h
        have := hs.1
        by_cases he : s.offset = s.data.length
        · rw [if_pos he]; exact ⟨s, rfl, ⟨h1, h2, h3⟩, rfl⟩
        · rw [if_neg he]
          exact ⟨_, rfl, ⟨by simp only; omega, by simp only; omega, h3⟩, rfl⟩
      | readByte =>
        obtain ⟨h1, h2, h3⟩ := h
        unfold call readByte
        by_cases he : s.offset ≥ s.data.length
        · rw [if_pos he]; exact ⟨s, rfl, ⟨h1, h2, h3⟩, rfl⟩
        · rw [if_neg he, if_pos h1]
          exact ⟨_, rfl, ⟨by simp only; omega, by simp only; omega, h3⟩, rfl⟩
      | peek n =>
        obtain ⟨h1, h2, h3⟩ := h
        have hs1 : 0 ≤ n ∧ n + s.data.length ≤ 9223372036854775807 := hs
        have hp : ∃ b, peek s n = .ok b := by
          unfold peek
          by_cases he : s.offset ≥ s.data.length
          · rw [if_pos he]; exact ⟨_, rfl⟩
          · rw [if_neg he, wrap_id (by omega) (by omega)]
            simp only
            rw [if_pos ⟨h1, by split <;> omega⟩]
            exact ⟨_, rfl⟩
        obtain ⟨b, hb⟩ := hp
        exact ⟨s, by simp only [call, hb], ⟨h1, h2, h3⟩, rfl⟩
    obtain ⟨s1, e1, o1, d1⟩ := step
    obtain ⟨s2, e2, o2, d2⟩ := ih s1 o1 (fun c hc' => by
      have := hc c (List.mem_cons_of_mem _ hc')
      cases c <;> simp_all [Sensible])
    exact ⟨s2, by simp [calls, e1, Res.bind, e2], o2, d2.trans d1⟩

/-- Reads of the given sizes, one after the other, until the end of the data: the pieces. -/
def pieces (s : Stream) : List Int → List Bytes
  | [] => []
  | n :: ns => match PDFStream.read s n with
    | .ok r => r.1 :: pieces r.2 ns
    | _ => []

/-- C112 (partial, as above): reading in pieces loses, repeats and reorders nothing: from any place, the pieces read one after the other are
together the data from that place on, as much of it as was asked for. -/
theorem C112_read_partial (ns : List Int) (s : Stream) (h : OnData s) (hn : ∀ n ∈ ns, 0 ≤ n ∧ n + s.data.length ≤ 9223372036854775807) :
    (pieces s ns).flatten = (s.data.drop s.offset.toNat).take (ns.foldr (fun n t => n.toNat + t) 0) := by
  induction ns generalizing s with
  | nil => simp [pieces]
  | cons n ns ih =>
    obtain ⟨hn1, hn2⟩ := hn n (by simp)
    have hr := read_eq s n h hn1 hn2
    obtain ⟨h1, h2, h3⟩ := h
    unfold pieces
    rw [hr]
    by_cases he : s.offset = s.data.length
    · rw [if_pos he]
      simp only [List.flatten_nil]
      rw [List.drop_of_length_le (by omega)]
      simp
    · rw [if_neg he]
      simp only [List.flatten_cons, List.foldr_cons]
      rw [ih { s with offset := min (s.offset + n) s.data.length } ⟨by simp only; omega, by simp only; omega, h3⟩
        (fun m hm => hn m (List.mem_cons_of_mem _ hm))]
      simp only
      rw [List.take_add, List.drop_drop]
      congr 2
      by_cases hc : s.offset + n ≤ s.data.length
      · congr 1; omega
      · rw [List.drop_of_length_le (by omega), List.drop_of_length_le (by omega)]

/-- C112: a `Seek` from the start to a place in the data stands at that place, and a read of one byte there is that byte. -/
theorem C112_seek (s : Stream) (h : OnData s) (i : Nat) (hi : i < s.data.length) :
    (seek s i 0).offset = i ∧ readByte (seek s i 0) = .ok (s.data[i], { s with offset := i + 1 }) := by
  obtain ⟨h1, h2, h3⟩ := h
  have e : seek s i 0 = { s with offset := (i : Int) } := by
    unfold seek
    simp only
    rw [if_neg (show ¬ (i : Int) < 0 by omega), if_neg (show ¬ (i : Int) > s.data.length by omega)]
  rw [e]
  refine ⟨rfl, ?_⟩
  unfold readByte
  simp only
  rw [if_neg (by omega), if_pos (by omega)]
  simp [List.getD_eq_getElem?_getD, hi]

/-- C112: `Seek` from the three origins: from the start, from the present place, and from the end; a target outside the data is brought to its
nearer end; any other origin leaves the place as it is. -/
theorem C112_origins (s : Stream) (h : OnData s) (off : Int) (ho : -4611686018427387904 ≤ off ∧ off ≤ 4611686018427387904)
    (hl : (s.data.length : Int) ≤ 4611686018427387903) :
    seek s off 0 = { s with offset := max 0 (min s.data.length off) } ∧
    seek s off 1 = { s with offset := max 0 (min s.data.length (s.offset + off)) } ∧
    seek s off 2 = { s with offset := max 0 (min s.data.length (s.data.length + off)) } ∧
    ∀ w, 2 < w → seek s off w = s := by
  obtain ⟨h1, h2, h3⟩ := h
  have w1 : wrap (s.offset + off) = s.offset + off := by unfold wrap; omega
  have w2 : wrap ((s.data.length : Int) + off) = s.data.length + off := by unfold wrap; omega
  refine ⟨?_, ?_, ?_, ?_⟩
  · simp only [seek]; congr 1; split <;> split <;> omega
  · simp only [seek, w1]; congr 1; split <;> split <;> omega
  · simp only [seek, w2]; congr 1; split <;> split <;> omega
  · intro w hw
    match w, hw with
    | w + 3, _ =>
      cases s
      simp only [seek, Stream.mk.injEq, true_and]
      simp only at h1 h2
      rw [if_neg (show ¬ _ by omega), if_neg (show ¬ _ by omega)]

/-- C112 (partial, as above): a peek is what a read of as many bytes is, and the stream stays where it is; at the end of the data it is empty. -/
theorem C112_peek_partial (s : Stream) (h : OnData s) (n : Int) (hn : 0 ≤ n ∧ n + s.data.length ≤ 9223372036854775807) :
    peek s n = .ok ((s.data.drop s.offset.toNat).take n.toNat) ∧
    (s.offset < s.data.length → ∃ s', PDFStream.read s n = .ok ((s.data.drop s.offset.toNat).take n.toNat, s')) := by
  obtain ⟨h1, h2, h3⟩ := h
  have w : wrap (s.offset + n) = s.offset + n := by unfold wrap; omega
  have e : ∀ e : Int, (e = s.offset + n ∨ (e = s.data.length ∧ e < s.offset + n)) → s.offset ≤ e →
      (s.data.drop s.offset.toNat).take (e - s.offset).toNat = (s.data.drop s.offset.toNat).take n.toNat := by
    intro e he hle
    rcases he with rfl | ⟨rfl, he⟩
    · congr 1; omega
    · rw [List.take_of_length_le, List.take_of_length_le] <;> simp <;> omega
  constructor
  · unfold peek
    simp only [w]
    split
    · rw [List.drop_of_length_le (by omega)]; simp
    · split
      · rw [if_pos (by omega), e _ (Or.inr ⟨rfl, by omega⟩) (by omega)]
      · rw [if_pos (by omega), e _ (Or.inl rfl) (by omega)]
  · intro hlt
    unfold PDFStream.read
    simp only [w]
    rw [if_neg (by omega)]
    split
    · rw [if_pos (by omega), e _ (Or.inr ⟨rfl, by omega⟩) (by omega)]; exact ⟨_, rfl⟩
    · rw [if_pos (by omega), e _ (Or.inl rfl) (by omega)]; exact ⟨_, rfl⟩

/-- C112: a read of the largest number of bytes, to get all the rest, crashes at every place but the first of the data. -/
theorem C112_overflow_violated (s : Stream) (h : OnData s) (h0 : 0 < s.offset) (h1 : s.offset < s.data.length) :
    PDFStream.read s 9223372036854775807 = .panic ∧ peek s 9223372036854775807 = .panic := by
  obtain ⟨_, _, h3⟩ := h
  have hw : wrap (s.offset + 9223372036854775807) = s.offset - 9223372036854775809 := by unfold wrap; omega
  have hn1 : ¬ s.offset ≥ (s.data.length : Int) := by omega
  have hn2 : ¬ s.offset - 9223372036854775809 > (s.data.length : Int) := by omega
  have hn3 : ¬ (0 ≤ s.offset ∧ s.offset ≤ s.offset - 9223372036854775809) := by omega
  constructor
  · unfold PDFStream.read; simp only [if_neg hn1, hw, if_neg hn2, if_neg hn3]
  · unfold peek; simp only [if_neg hn1, hw, if_neg hn2, if_neg hn3]

example : OnData { data := b!"%PDF-1.7", offset := 3 } ∧ pieces { data := b!"%PDF-1.7", offset := 3 } [2, 0, 1, 9] = [b!"F-", [], b!"1", b!".7"] := by
  refine ⟨⟨by decide, by decide, by decide⟩, by decide⟩

/-! ### C113: an object at its offset -/

theorem ws_digit {c : UInt8} (h : isDigit c = true) : ws c = false := by
  revert h; revert c; apply forall_byte; decide +kernel

theorem takeWhile_tok {t r : Bytes} {c : UInt8} (ht : ∀ x ∈ t, isDigit x = true) (hc : ws c = true) :
    (t ++ c :: r).takeWhile (fun c => !ws c) = t := by
  induction t with
  | nil => simp [hc]
  | cons x t ih =>
    have := ws_digit (ht x (by simp))
    simp [this, ih fun y hy => ht y (List.mem_cons_of_mem _ hy)]

/-- Where the digits of a token start, white space is not skipped. -/
theorem skip_none (a b : Bytes) (c : UInt8) (hc : ws c = false) : skipWs (a ++ c :: b) a.length = a.length := by
  unfold skipWs
  simp [hc]

/-- One white space before a token is skipped. -/
theorem skip_one (a b : Bytes) (x c : UInt8) (hx : ws x = true) (hc : ws c = false) : skipWs (a ++ x :: c :: b) a.length = a.length + 1 := by
  unfold skipWs
  simp [hc, hx]

theorem natDec_cons (n : Nat) : ∃ c t, natDec n = c :: t ∧ isDigit c = true ∧ ∀ x ∈ natDec n, isDigit x = true := by
  cases h : natDec n with
  | nil => exact absurd h (natDec_ne_nil n)
  | cons c t => exact ⟨c, t, rfl, natDec_digits n c (by rw [h]; simp), by rw [← h]; exact natDec_digits n⟩

/-- At the start of an object that has white space before it, the header is not read. -/
theorem header_missed (a b : Bytes) (x : UInt8) (n g : Nat) (hx : ws x = true) :
    readHeader (a ++ x :: (natDec n ++ 32 :: (natDec g ++ 32 :: b))) (a.length + 1) = none := by
  obtain ⟨c, t, hn, hc, hd⟩ := natDec_cons n
  obtain ⟨c2, t2, hg, hc2, hd2⟩ := natDec_cons g
  have w1 := ws_digit hc
  have w2 := ws_digit hc2
  generalize hD : a ++ x :: (natDec n ++ 32 :: (natDec g ++ 32 :: b)) = D
  have e0 : D = (a ++ [x]) ++ c :: (t ++ 32 :: (natDec g ++ 32 :: b)) := by rw [← hD, hn]; simp
  have e1 : D = a ++ x :: c :: (t ++ 32 :: (natDec g ++ 32 :: b)) := by rw [← hD, hn]; simp
  have e2 : D = (a ++ x :: natDec n) ++ 32 :: c2 :: (t2 ++ 32 :: b) := by rw [← hD, hg]; simp
  have l1 : (a ++ [x]).length = a.length + 1 := by simp
  have hcom : skipComment D (a.length + 1) = a.length + 1 := by
    unfold skipComment
    have : D.drop (a.length + 1) = c :: (t ++ 32 :: (natDec g ++ 32 :: b)) := by rw [e0, ← l1, List.drop_left]
    rw [this]
    split
    · rename_i h; cases h; exact absurd hc (by decide)
    · rfl
  have s1 : skipWs D (a.length + 1) = a.length + 1 := by
    have := skip_none (a ++ [x]) (t ++ 32 :: (natDec g ++ 32 :: b)) c w1
    rw [← e0, l1] at this; exact this
  have k1 : readTok D a.length = ([], a.length) := by
    unfold readTok
    have : D.drop a.length = x :: c :: (t ++ 32 :: (natDec g ++ 32 :: b)) := by rw [e1, List.drop_left]
    rw [this]
    simp [hx]
  have s2 : skipWs D a.length = a.length + 1 := by rw [e1]; exact skip_one a _ x c hx w1
  have k2 : readTok D (a.length + 1) = (natDec n, a.length + 1 + (natDec n).length) := by
    unfold readTok
    have : D.drop (a.length + 1) = natDec n ++ 32 :: (natDec g ++ 32 :: b) := by rw [e0, ← l1, List.drop_left, hn]; simp
    rw [this, takeWhile_tok hd (by decide)]
  have l2 : (a ++ x :: natDec n).length = a.length + 1 + (natDec n).length := by simp; omega
  have s3 : skipWs D (a.length + 1 + (natDec n).length) = a.length + 1 + (natDec n).length + 1 := by
    have := skip_one (a ++ x :: natDec n) (t2 ++ 32 :: b) 32 c2 (by decide) w2
    rw [← e2, l2] at this; exact this
  have hobj : (D.drop (a.length + 1 + (natDec n).length + 1)).take 3 ≠ b!"obj" := by
    have : D.drop (a.length + 1 + (natDec n).length + 1) = c2 :: (t2 ++ 32 :: b) := by
      have e3 : D = (a ++ x :: natDec n ++ [32]) ++ c2 :: (t2 ++ 32 :: b) := by rw [e2]; simp
      have l3 : (a ++ x :: natDec n ++ [32]).length = a.length + 1 + (natDec n).length + 1 := by simp; omega
      rw [e3, ← l3, List.drop_left]
    rw [this]
    intro h
    have : c2 = 111 := by
      have := congrArg List.head? h
      simpa using this
    subst this
    exact absurd hc2 (by decide)
  unfold readHeader
  simp only [hcom, s1, Nat.add_sub_cancel, k1, s2, k2, s3]
  rw [if_neg hobj]

theorem index_window {p F : Bytes} (lo hi o : Nat) (hp : p ≠ []) (h1 : lo ≤ o) (h2 : o + p.length ≤ hi) (ho : p <+: F.drop o)
    (hfirst : ∀ i, lo ≤ i → i < o → ¬ p <+: F.drop i) (hlen : hi ≤ F.length) : index p ((F.take hi).drop lo) = some (o - lo) := by
  rw [index_eq_some_iff]
  have key : ∀ i, lo ≤ i → p <+: (F.take hi).drop i → p <+: F.drop i := by
    intro i _ h
    exact h.trans (by
      rw [List.drop_take]
      exact List.take_prefix _ _)
  refine ⟨?_, ?_, ?_⟩
  · rw [List.length_drop, List.length_take]; omega
  · rw [List.drop_drop, show lo + (o - lo) = o by omega, List.drop_take]
    rw [List.prefix_iff_eq_take] at ho ⊢
    rw [List.take_take, show min p.length (hi - o) = p.length by omega]
    exact ho
  · intro j hj
    rw [List.drop_drop]
    intro h
    exact hfirst (lo + j) (by omega) (by omega) (key _ (by omega) h)

/-- C113: an object is never read from its own offset: whenever the cross-reference offset is right, so that `<number> <generation> obj` begins
there, with white space before it as every writer puts it, and no other such text in the 500 bytes before, `ReadObjectFromXRef` returns an
error, whatever the object is. -/
theorem C113_offset_violated (rest : Int → Nat → Res Bytes) (before after : Bytes) (x : UInt8) (n g : Nat) (hx : x = 32 ∨ x = 9 ∨ x = 13 ∨ x = 10)
    (hsize : (itoa n ++ b!" " ++ itoa g ++ b!" obj").length ≤ 500)
    (hfirst : ∀ i, before.length + 1 - 500 ≤ i → i < before.length + 1 →
      ¬ (itoa n ++ b!" " ++ itoa g ++ b!" obj") <+: (before ++ x :: (itoa n ++ b!" " ++ itoa g ++ b!" obj" ++ after)).drop i) :
    readObject rest (before ++ x :: (itoa n ++ b!" " ++ itoa g ++ b!" obj" ++ after)) n g (before.length + 1) = .err := by
  have hws : ws x = true := by rcases hx with rfl | rfl | rfl | rfl <;> decide
  have e : before ++ x :: (itoa n ++ b!" " ++ itoa g ++ b!" obj" ++ after) = before ++ x :: (natDec n ++ 32 :: (natDec g ++ 32 :: (b!"obj" ++ after))) := by
    simp [itoa]
  have hm := header_missed before (b!"obj" ++ after) x n g hws
  rw [← e] at hm
  have hocc : (itoa n ++ b!" " ++ itoa g ++ b!" obj") <+: (before ++ x :: (itoa n ++ b!" " ++ itoa g ++ b!" obj" ++ after)).drop (before.length + 1) := by
    have : before ++ x :: (itoa n ++ b!" " ++ itoa g ++ b!" obj" ++ after) = (before ++ [x]) ++ (itoa n ++ b!" " ++ itoa g ++ b!" obj" ++ after) := by simp
    rw [this, show before.length + 1 = (before ++ [x]).length by simp, List.drop_left]
    exact List.prefix_append _ _
  have hpne : itoa n ++ b!" " ++ itoa g ++ b!" obj" ≠ [] := by simp
  have hlen : (before ++ x :: (itoa n ++ b!" " ++ itoa g ++ b!" obj" ++ after)).length = before.length + 1 + (itoa n ++ b!" " ++ itoa g ++ b!" obj").length + after.length := by
    simp only [List.length_append, List.length_cons]; omega
  generalize hP : itoa n ++ b!" " ++ itoa g ++ b!" obj" = P at *
  generalize before ++ x :: (P ++ after) = D at *
  have hat : (seek { data := D } ((before.length : Int) + 1) 0).offset.toNat = before.length + 1 := by
    unfold seek
    simp only
    rw [if_neg (show ¬ (before.length : Int) + 1 < 0 by omega), if_neg (by rw [hlen]; omega)]
    omega
  unfold readObject
  simp only
  rw [hat, hm]
  simp only
  rw [if_pos (by omega)]
  have hlo : (max 0 ((before.length : Int) + 1 - 500)).toNat = before.length + 1 - 500 := by omega
  have hi : (min (D.length : Int) ((before.length : Int) + 1 + 500)).toNat = min D.length (before.length + 1 + 500) := by omega
  rw [hP, hlo, hi, index_window (before.length + 1 - 500) (min D.length (before.length + 1 + 500)) (before.length + 1) hpne (by omega) (by omega) hocc hfirst (by omega)]
  simp only
  rw [show before.length + 1 - 500 + (before.length + 1 - (before.length + 1 - 500)) = before.length + 1 by omega, hm]

/-- C113 (partial: an object at the very start of the data): there the header is read: the object number and generation are those written,
whatever generation was asked for; and asked for another number, it is an error, never this object. -/
theorem C113_first_partial (rest : Int → Nat → Res Bytes) (after : Bytes) (x : UInt8) (n g : Nat) (k g' : Int) (hn : (n : Int) ≤ 9223372036854775807)
    (hg : (g : Int) ≤ 9223372036854775807) (hx : ws x = false) :
    readObject rest (itoa n ++ b!" " ++ itoa g ++ b!" obj" ++ x :: after) k g' 0 = if (n : Int) = k then rest g ((itoa n).length + (itoa g).length + 4) else .err := by
  obtain ⟨c, t, hn', hc, hd⟩ := natDec_cons n
  obtain ⟨c2, t2, hg', hc2, hd2⟩ := natDec_cons g
  have w1 := ws_digit hc
  have w2 := ws_digit hc2
  have e : itoa n ++ b!" " ++ itoa g ++ b!" obj" ++ x :: after = natDec n ++ 32 :: (natDec g ++ 32 :: (b!"obj" ++ x :: after)) := by simp [itoa]
  rw [e]
  generalize hD : natDec n ++ 32 :: (natDec g ++ 32 :: (b!"obj" ++ x :: after)) = D
  have e0 : D = [] ++ c :: (t ++ 32 :: (natDec g ++ 32 :: (b!"obj" ++ x :: after))) := by rw [← hD, hn']; simp
  have e1 : D = natDec n ++ 32 :: c2 :: (t2 ++ 32 :: (b!"obj" ++ x :: after)) := by rw [← hD, hg']; simp
  have e2 : D = (natDec n ++ 32 :: natDec g) ++ 32 :: 111 :: (b!"bj" ++ x :: after) := by rw [← hD]; simp
  have e3 : D = (natDec n ++ 32 :: natDec g ++ b!" obj") ++ x :: after := by rw [← hD]; simp
  have hcom : skipComment D 0 = 0 := by
    unfold skipComment
    rw [e0]
    simp only [List.nil_append, List.drop_zero]
    split
    · rename_i h; cases h; exact absurd hc (by decide)
    · rfl
  have s1 : skipWs D 0 = 0 := by
    have := skip_none [] (t ++ 32 :: (natDec g ++ 32 :: (b!"obj" ++ x :: after))) c w1
    rw [← e0] at this; exact this
  have k1 : readTok D 0 = (natDec n, (natDec n).length) := by
    unfold readTok
    rw [← hD, List.drop_zero, takeWhile_tok hd (by decide)]
    simp
  have s2 : skipWs D (natDec n).length = (natDec n).length + 1 := by rw [e1]; exact skip_one _ _ 32 c2 (by decide) w2
  have k2 : readTok D ((natDec n).length + 1) = (natDec g, (natDec n).length + 1 + (natDec g).length) := by
    unfold readTok
    have : D.drop ((natDec n).length + 1) = natDec g ++ 32 :: (b!"obj" ++ x :: after) := by
      have : D = (natDec n ++ [32]) ++ (natDec g ++ 32 :: (b!"obj" ++ x :: after)) := by rw [← hD]; simp
      rw [this, show (natDec n).length + 1 = (natDec n ++ [32]).length by simp, List.drop_left]
    rw [this, takeWhile_tok hd2 (by decide)]
  have l2 : (natDec n ++ 32 :: natDec g).length = (natDec n).length + 1 + (natDec g).length := by simp; omega
  have s3 : skipWs D ((natDec n).length + 1 + (natDec g).length) = (natDec n).length + 1 + (natDec g).length + 1 := by
    have := skip_one (natDec n ++ 32 :: natDec g) (b!"bj" ++ x :: after) 32 111 (by decide) (by decide)
    rw [← e2, l2] at this; exact this
  have hobj : (D.drop ((natDec n).length + 1 + (natDec g).length + 1)).take 3 = b!"obj" := by
    have e4 : D = (natDec n ++ 32 :: natDec g ++ [32]) ++ (b!"obj" ++ x :: after) := by rw [e2]; simp
    rw [e4, show (natDec n).length + 1 + (natDec g).length + 1 = (natDec n ++ 32 :: natDec g ++ [32]).length by simp; omega, List.drop_left]
    rfl
  have s4 : skipWs D ((natDec n).length + 1 + (natDec g).length + 1 + 3) = (natDec n).length + 1 + (natDec g).length + 1 + 3 := by
    have := skip_none (natDec n ++ 32 :: natDec g ++ b!" obj") after x hx
    rw [← e3] at this
    rw [show (natDec n).length + 1 + (natDec g).length + 1 + 3 = (natDec n ++ 32 :: natDec g ++ b!" obj").length by simp; omega]
    exact this
  have a1 : atoi (natDec n) = some (n : Int) := Manipulate.atoi_itoa (n : Int) (by omega) hn
  have a2 : atoi (natDec g) = some (g : Int) := Manipulate.atoi_itoa (g : Int) (by omega) hg
  have hread : readHeader D 0 = some ((n : Int), (g : Int), (natDec n).length + 1 + (natDec g).length + 1 + 3 - 1) := by
    unfold readHeader
    simp only [hcom, s1, Nat.zero_sub, k1, s2, Nat.add_sub_cancel, k2, s3, s4]
    rw [if_pos hobj, a1, a2]
    rfl
  have hat : (seek { data := D } 0 0).offset.toNat = 0 := by
    unfold seek
    simp only
    split <;> split <;> omega
  unfold readObject
  simp only
  rw [hat, hread]
  simp only [ne_eq, ite_not]
  split
  · congr 1
    simp only [itoa]
    omega
  · rfl

/-- A file with an object: the offset of the object is 9. -/
example : readObject (fun _ _ => .ok []) b!"%PDF-1.7\n2 0 obj\n<<>>\nendobj\n" 2 0 9 = .err ∧
    readObject (fun _ _ => .ok []) b!"2 0 obj<<>>\nendobj\n" 2 0 0 = .ok [] := by decide +kernel

/-- The hypotheses of `C113_offset_violated` hold for it. -/
example : ∀ i, (b!"%PDF-1.7").length + 1 - 500 ≤ i → i < (b!"%PDF-1.7").length + 1 →
    ¬ (itoa (2 : Nat) ++ b!" " ++ itoa (0 : Nat) ++ b!" obj") <+: (b!"%PDF-1.7" ++ (10 : UInt8) :: (itoa (2 : Nat) ++ b!" " ++ itoa (0 : Nat) ++ b!" obj" ++ b!"\n<<>>\nendobj\n")).drop i := by
  decide +kernel

end Pdfer.Props
