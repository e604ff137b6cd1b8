import Verif.Proofs.ToUnicode

/-! ToUnicode maps: the sections and the resulting map. -/

namespace Pdfer.Enc

open Pdfer.Go Pdfer.Strings Pdfer.Spec.Enc Pdfer.Font Pdfer.Forms Pdfer.Manipulate

/-! ### Assignments -/

/-- Several assignments. -/
def setAll (m : Map Int Int) (l : List (Int × Int)) : Map Int Int := l.foldl (fun m p => m.set p.1 p.2) m

theorem setAll_append (m : Map Int Int) (a b : List (Int × Int)) : setAll m (a ++ b) = setAll (setAll m a) b := by
  simp [setAll, List.foldl_append]

theorem setAll_get (l : List (Int × Int)) (hf : ∀ k v v', (k, v) ∈ l → (k, v') ∈ l → v = v') (k v : Int) :
    (setAll [] l).get k = some v ↔ (k, v) ∈ l := by
  suffices h : ∀ (n : Nat) (l : List (Int × Int)), l.length = n → (∀ k v v', (k, v) ∈ l → (k, v') ∈ l → v = v') →
      ((setAll [] l).get k = some v ↔ (k, v) ∈ l) from h _ l rfl hf
  intro n
  induction n with
  | zero =>
    intro l hl _
    have : l = [] := List.eq_nil_of_length_eq_zero hl
    subst this
    simp [setAll, Map.get]
  | succ n ih =>
    intro l hl hf
    have hne : l ≠ [] := by rintro rfl; simp at hl
    obtain ⟨l', p, rfl⟩ : ∃ l' p, l = l' ++ [p] := ⟨l.dropLast, l.getLast hne, (List.dropLast_concat_getLast hne).symm⟩
    have ih := ih l' (by simp at hl; exact hl) (fun k v v' h1 h2 => hf k v v' (by simp [h1]) (by simp [h2]))
    have e : setAll [] (l' ++ [p]) = (setAll [] l').set p.1 p.2 := by simp [setAll, List.foldl_append]
    rw [e]
    by_cases hk : k = p.1
    · subst hk
      rw [Map.get_set_eq]
      constructor
      · intro h; obtain rfl := Option.some.inj h; simp
      · intro h; rw [hf p.1 p.2 v (by simp) h]
    · rw [Map.get_set_ne _ _ hk, ih]
      simp only [List.mem_append, List.mem_singleton]
      constructor
      · exact .inl
      · rintro (h | h)
        · exact h
        · exact absurd (by rw [← h]) hk

/-- The assignments of an entry. -/
def Entry.assigns : Entry → List (Int × Int)
  | .run lo hi dst => (List.range (hi + 1 - lo)).map fun i => (((lo + i : Nat) : Int), ((dst + i : Nat) : Int))
  | .list lo us => us.zipIdx.map fun p => (((lo + p.2 : Nat) : Int), (p.1 : Int))

theorem Entry.mem_assigns (e : Entry) (k v : Int) : (k, v) ∈ Entry.assigns e ↔ ∃ c u : Nat, k = c ∧ v = u ∧ e.maps c u := by
  cases e with
  | run lo hi dst =>
    simp only [Entry.assigns, List.mem_map, List.mem_range, Prod.mk.injEq, Entry.maps]
    constructor
    · rintro ⟨i, hi, rfl, rfl⟩
      exact ⟨lo + i, dst + i, rfl, rfl, by omega, by omega, by omega⟩
    · rintro ⟨c, u, rfl, rfl, h1, h2, h3⟩
      exact ⟨c - lo, by omega, by omega, by omega⟩
  | list lo us =>
    simp only [Entry.assigns, List.mem_map, Prod.mk.injEq, Entry.maps]
    constructor
    · rintro ⟨⟨u, i⟩, h, rfl, rfl⟩
      rw [List.mem_zipIdx_iff_getElem?] at h
      exact ⟨lo + i, u, rfl, rfl, by omega, by rw [Nat.add_sub_cancel_left]; exact h⟩
    · rintro ⟨c, u, rfl, rfl, h1, h2⟩
      exact ⟨(u, c - lo), by rw [List.mem_zipIdx_iff_getElem?]; exact h2, by simp only; omega, rfl⟩

theorem len2 {α : Type} {l : List α} (h : l.length = 2) : ∃ a b, l = [a, b] := by
  match l, h with
  | [a, b], _ => exact ⟨a, b, rfl⟩

/-! ### One section -/

/-- The texts of an entry. -/
def Entry.raw (st : Style) : Entry → RawEntry
  | .run lo hi dst => .run (hexPad st.digits lo) (hexPad st.digits hi) (hexPad 4 dst)
  | .list lo [u] => .one (hexPad st.digits lo) (hexPad st.digits lo) (hexPad 4 u)
  | .list lo (u :: v :: _) => .two (hexPad st.digits lo) (hexPad st.digits (lo + 1)) (hexPad 4 u) (hexPad 4 v)
  | .list _ [] => .run [] [] []

theorem Entry.raw_text (st : Style) (e : Entry) (h : e.ok) : e.text st = RawEntry.text st.sp (Entry.raw st e) := by
  cases e with
  | run lo hi dst => simp [Entry.text, Entry.raw, RawEntry.text, Style.code, uniText, tok]
  | list lo us =>
    rcases h.2.2 with hl | hl
    · obtain ⟨u, rfl⟩ := List.length_eq_one_iff.1 hl
      simp [Entry.text, Entry.raw, RawEntry.text, Style.code, uniText, tok, joinWith]
    · obtain ⟨u, v, rfl⟩ := len2 hl
      simp [Entry.text, Entry.raw, RawEntry.text, Style.code, uniText, tok, joinWith]

theorem Entry.raw_ok (st : Style) (e : Entry) (h : e.ok) : (Entry.raw st e).ok := by
  cases e with
  | run lo hi dst => exact ⟨pad_hexStr _ _, pad_hexStr _ _, pad_hexStr _ _⟩
  | list lo us =>
    rcases h.2.2 with hl | hl
    · obtain ⟨u, rfl⟩ := List.length_eq_one_iff.1 hl
      exact ⟨pad_hexStr _ _, pad_hexStr _ _, pad_hexStr _ _⟩
    · obtain ⟨u, v, rfl⟩ := len2 hl
      exact ⟨pad_hexStr _ _, pad_hexStr _ _, pad_hexStr _ _, pad_hexStr _ _⟩

/-- The runs among the entries, and the lists. -/
def Entry.isRun : Entry → Bool
  | .run _ _ _ => true
  | .list _ _ => false

theorem setRange_eq (m : Map Int Int) (lo hi dst : Nat) (hd : dst + (hi - lo) < 65536) :
    setRange m lo hi dst = setAll m (Entry.assigns (.run lo hi dst)) := by
  rw [setRange, Entry.assigns, setAll, List.foldl_map, show ((hi : Int) - (lo : Int) + 1).toNat = hi + 1 - lo by omega]
  have : ∀ (l : List Nat) (m : Map Int Int), (∀ i ∈ l, i < hi + 1 - lo) →
      l.foldl (fun (m : Map Int Int) (i : Nat) => m.set ((lo : Int) + i) (rune64 ((dst : Int) + i))) m =
      l.foldl (fun (m : Map Int Int) (i : Nat) => m.set ((lo + i : Nat) : Int) ((dst + i : Nat) : Int)) m := by
    intro l
    induction l with
    | nil => intro m _; rw [List.foldl_nil, List.foldl_nil]
    | cons i l ih =>
      intro m h
      have hi := h i (by simp)
      rw [List.foldl_cons, List.foldl_cons, ih _ (fun j hj => h j (by simp [hj]))]
      have e1 : rune64 ((dst : Int) + i) = ((dst + i : Nat) : Int) := by
        rw [rune64, Int.bmod_eq_of_le (by omega) (by omega)]
        omega
      rw [e1, show ((lo : Int) + i) = ((lo + i : Nat) : Int) by omega]
  exact this _ m (by intro i hi; exact List.mem_range.1 hi)

theorem runs_fold (st : Style) : ∀ (l : List Entry) (m : Map Int Int), (∀ e ∈ l, e.ok) →
    ((l.map (Entry.raw st)).flatMap RawEntry.run?).foldl setTriple m = setAll m ((l.filter Entry.isRun).flatMap Entry.assigns) := by
  intro l
  induction l with
  | nil => intro m _; rfl
  | cons e l ih =>
    intro m h
    have ih := fun m => ih m (fun q hq => h q (by simp [hq]))
    have ok := h e (by simp)
    rw [List.map_cons, List.flatMap_cons, List.foldl_append]
    cases e with
    | run lo hi dst =>
      obtain ⟨h1, h2, h3⟩ := ok
      rw [List.filter_cons_of_pos (by rfl), List.flatMap_cons, setAll_append, ← setRange_eq m lo hi dst h3, ih]
      simp only [Entry.raw, RawEntry.run?, List.foldl_cons, List.foldl_nil, setTriple]
      rw [parseHex_pad _ _ h1, parseHex_pad _ _ h2, parseHex_pad _ _ (by omega)]
    | list lo us =>
      rw [List.filter_cons_of_neg (by simp [Entry.isRun])]
      rcases ok.2.2 with hl | hl
      · obtain ⟨u, rfl⟩ := List.length_eq_one_iff.1 hl
        exact ih m
      · obtain ⟨u, v, rfl⟩ := len2 hl
        exact ih m

theorem findAll_tok1 {h : Bytes} (hh : HexStr h) : findAll reHexTok 0 (tok h) = [h] := by
  have := findAll_here (m := tok h) (rest := []) (p := reHexTok) (r := h) (by simp [tok]) (reHexTok_tok hh [])
  simpa [findAll] using this

theorem findAll_tok2 {a b sp : Bytes} (ha : HexStr a) (hb : HexStr b) (hs : White sp) :
    findAll reHexTok 0 (tok a ++ (sp ++ tok b)) = [a, b] := by
  have := findAll_here (m := tok a) (rest := sp ++ tok b) (p := reHexTok) (r := a) (by simp [tok]) (reHexTok_tok ha _)
  rw [this, findAll_pass (fun s => reHexTok_none) (white_no_lt hs), findAll_tok1 hb]

theorem arrs_fold (st : Style) (hs : White st.sp) : ∀ (l : List Entry) (m : Map Int Int), (∀ e ∈ l, e.ok) →
    ((l.map (Entry.raw st)).flatMap (RawEntry.arr? st.sp)).foldl setArr m =
      setAll m ((l.filter (fun e => !Entry.isRun e)).flatMap Entry.assigns) := by
  intro l
  induction l with
  | nil => intro m _; rfl
  | cons e l ih =>
    intro m h
    have ih := fun m => ih m (fun q hq => h q (by simp [hq]))
    have ok := h e (by simp)
    rw [List.map_cons, List.flatMap_cons, List.foldl_append]
    cases e with
    | run lo hi dst =>
      rw [List.filter_cons_of_neg (by simp [Entry.isRun])]
      exact ih m
    | list lo us =>
      rw [List.filter_cons_of_pos (by simp [Entry.isRun]), List.flatMap_cons, setAll_append, ← ih]
      congr 1
      obtain ⟨h1, h2, h3⟩ := ok
      rcases h3 with hl | hl
      · obtain ⟨u, rfl⟩ := List.length_eq_one_iff.1 hl
        simp only [Entry.raw, RawEntry.arr?, List.foldl_cons, List.foldl_nil, setArr]
        rw [parseHex_pad _ _ (by omega), findAll_tok1 (pad_hexStr _ _)]
        simp only [arrLoop]
        rw [if_neg (by omega), hexRunes_pad (h2 u (by simp))]
        simp [setAll, Entry.assigns]
      · obtain ⟨u, v, rfl⟩ := len2 hl
        simp only [Entry.raw, RawEntry.arr?, List.foldl_cons, List.foldl_nil, setArr]
        rw [parseHex_pad _ _ (by omega), parseHex_pad _ _ (by omega), findAll_tok2 (pad_hexStr _ _) (pad_hexStr _ _) hs]
        simp only [arrLoop]
        rw [if_neg (by omega), hexRunes_pad (h2 u (by simp)), if_neg (by omega), hexRunes_pad (h2 v (by simp))]
        simp [setAll, Entry.assigns]

/-- A range section. -/
theorem bfrange_eq (st : Style) (hst : st.ok) (l : List Entry) (h : ∀ e ∈ l, e.ok) (m : Map Int Int) :
    bfrange m (joinWith st.nl (l.map (Entry.text st))) =
      setAll m ((l.filter Entry.isRun).flatMap Entry.assigns ++ (l.filter (fun e => !Entry.isRun e)).flatMap Entry.assigns) := by
  have e : l.map (Entry.text st) = (l.map (Entry.raw st)).map (RawEntry.text st.sp) := by
    rw [List.map_map]
    apply List.map_congr_left
    intro a ha
    exact Entry.raw_text st a (h a ha)
  have hr : ∀ r ∈ l.map (Entry.raw st), r.ok := by
    intro r hr
    obtain ⟨a, ha, rfl⟩ := List.mem_map.1 hr
    exact Entry.raw_ok st a (h a ha)
  rw [bfrange, e, findAll_triples hst.1 hst.2.1 _ hr, findAll_arrays hst.1 hst.2.1 _ hr, runs_fold st l m h,
    arrs_fold st hst.1 l _ h, setAll_append]

/-- A section of single codes. -/
theorem bfchar_eq (st : Style) (hst : st.ok) (l : List (Nat × Nat)) (h : ∀ p ∈ l, p.1 ≤ 2147483647 ∧ p.2 < 65536) (m : Map Int Int) :
    bfchar m (joinWith st.nl (l.map fun p => st.code p.1 ++ st.sp ++ uniText p.2)) =
      setAll m (l.map fun p => ((p.1 : Int), (p.2 : Int))) := by
  have e : (l.map fun p => st.code p.1 ++ st.sp ++ uniText p.2) =
      (l.map fun p => (hexPad st.digits p.1, hexPad 4 p.2)).map fun p => tok p.1 ++ (st.sp ++ tok p.2) := by
    rw [List.map_map]
    apply List.map_congr_left
    intro p _
    simp [Style.code, uniText, tok]
  have hh : ∀ p ∈ l.map fun p => (hexPad st.digits p.1, hexPad 4 p.2), HexStr p.1 ∧ HexStr p.2 := by
    intro p hp
    obtain ⟨q, _, rfl⟩ := List.mem_map.1 hp
    exact ⟨pad_hexStr _ _, pad_hexStr _ _⟩
  rw [bfchar, e, findAll_chars hst.1 hst.2.1 _ hh, List.foldl_map, setAll, List.foldl_map]
  clear e hh
  induction l generalizing m with
  | nil => rfl
  | cons p l ih =>
    obtain ⟨h1, h2⟩ := h p (by simp)
    rw [List.foldl_cons, List.foldl_cons, ih (fun q hq => h q (by simp [hq]))]
    congr 1
    simp only [setChar]
    rw [parseHex_pad _ _ h1, hexRunes_pad h2]

/-! ### Blocks -/

/-- The block of a section, without the white space around it. -/
theorem reBlock_here {beg endk nl J rest : Bytes} (hn : White nl) (hJ1 : ∀ c, J.head? = some c → reSpace c = false)
    (hJ2 : ∀ c, J.getLast? = some c → reSpace c = false) (hJ3 : (101 : UInt8) ∉ J) :
    reBlock beg (101 :: endk) (beg ++ (nl ++ (J ++ (nl ++ ((101 :: endk) ++ rest))))) = some (J, rest) := by
  rw [reBlock, reLit_append, Option.bind_some]
  have h101 : (101 : UInt8) ∉ nl := fun h => absurd (hn _ h) (by decide)
  have sp : reSp0 (nl ++ (J ++ (nl ++ ((101 :: endk) ++ rest)))) =
      (if J = [] then [] else J ++ nl) ++ ((101 :: endk) ++ rest) := by
    split
    · rename_i h
      subst h
      rw [List.nil_append, ← List.append_assoc]
      exact sp0_white (by intro c hc; rcases List.mem_append.1 hc with h | h <;> exact hn c h) (by intro c hc; simp at hc; subst hc; decide)
    · rename_i h
      rw [List.append_assoc]
      refine sp0_white hn (fun c hc => ?_)
      cases J with
      | nil => exact absurd rfl h
      | cons a J => exact hJ1 c (by simpa using hc)
  simp only [sp]
  rw [index_skip (by split <;> simp [hJ3, h101]), index_here (List.prefix_append _ _)]
  simp only [Option.map_some, Nat.zero_add, Option.some.injEq]
  generalize hx : (if J = [] then [] else J ++ nl) = x
  have e1 : (x ++ ((101 :: endk) ++ rest)).take x.length = x := List.take_left
  have e2 : (x ++ ((101 :: endk) ++ rest)).drop (x.length + (101 :: endk).length) = rest := by
    rw [List.drop_append, List.drop_of_length_le (by omega), List.nil_append, Nat.add_sub_cancel_left, List.drop_left]
  rw [e1, e2]
  refine Prod.ext ?_ rfl
  subst hx
  simp only
  split
  · rename_i h; subst h; rfl
  · rw [List.reverse_append, dropWhile_all (by intro c hc; exact hn c (List.mem_reverse.1 hc)), List.reverse_reverse]
    intro c hc
    rw [List.head?_reverse] at hc
    exact hJ2 c hc

theorem reBlock_prefix {beg e s : Bytes} (h : reBlock beg e s ≠ none) : beg <+: s := by
  apply reLit_prefix
  intro hn
  rw [reBlock, hn] at h
  exact h rfl

/-- A keyword at the start of a text ends before a character that is not in it. -/
theorem prefix_before {pat x y : Bytes} {c : UInt8} (hc : c ∉ pat) (h : pat <+: x ++ c :: y) : pat <+: x := by
  rcases List.prefix_or_prefix_of_prefix h (List.prefix_append x (c :: y)) with h1 | ⟨t, ht⟩
  · exact h1
  · subst ht
    rw [List.prefix_append_right_inj] at h
    cases t with
    | nil => simp
    | cons d t =>
      obtain ⟨r, hr⟩ := h
      rw [List.cons_append, List.cons.injEq] at hr
      exact absurd (by simp [hr.1]) hc

/-- Text without the keyword, closed by other characters, is passed over. -/
theorem findAll_past {α : Type} {p : Bytes → Option (α × Bytes)} {b : UInt8} {beg : Bytes} (hp : ∀ s, p s ≠ none → (b :: beg) <+: s)
    {w : Bytes} (hw : ∀ c ∈ w, c ∉ b :: beg) (hne : w ≠ []) : ∀ {x : Bytes}, NoOcc (b :: beg) x → ∀ y,
    findAll p 0 (x ++ (w ++ y)) = findAll p 0 y := by
  have hwm : ∀ (w : Bytes), (∀ c ∈ w, c ∉ b :: beg) → ∀ y, findAll p 0 (w ++ y) = findAll p 0 y := by
    intro w
    induction w with
    | nil => intro _ y; rfl
    | cons c w ih =>
      intro h y
      rw [List.cons_append, findAll_miss, ih (fun d hd => h d (by simp [hd]))]
      cases hpc : p (c :: (w ++ y)) with
      | none => rfl
      | some v =>
        obtain ⟨t, ht⟩ := hp _ (by rw [hpc]; simp)
        rw [List.cons_append, List.cons.injEq] at ht
        exact absurd (by rw [← ht.1]; simp) (h c (by simp))
  intro x
  induction x with
  | nil => intro _ y; exact hwm w hw y
  | cons a x ih =>
    intro hx y
    have hx' : NoOcc (b :: beg) x := noOcc_suffix (a := [a]) hx
    rw [List.cons_append, findAll_miss, ih hx']
    cases hpc : p (a :: (x ++ (w ++ y))) with
    | none => rfl
    | some v =>
      have hpre := hp _ (by rw [hpc]; simp)
      cases w with
      | nil => exact absurd rfl hne
      | cons c w => exact absurd (prefix_before (hw c (by simp)) (x := a :: x) (y := w ++ y) (by simpa using hpre)) (hx 0)

theorem findAll_noOcc {α : Type} {p : Bytes → Option (α × Bytes)} {beg : Bytes} (hp : ∀ s, p s ≠ none → beg <+: s) :
    ∀ {x : Bytes}, NoOcc beg x → findAll p 0 x = [] := by
  intro x
  induction x with
  | nil => intro _; rfl
  | cons a x ih =>
    intro h
    rw [findAll_miss, ih (noOcc_suffix (a := [a]) h)]
    cases hpc : p (a :: x) with
    | none => rfl
    | some v => exact absurd (hp (a :: x) (by rw [hpc]; simp)) (h 0)

theorem noOcc_sep {pat a : Bytes} (ha : NoOcc pat a) : ∀ {w b : Bytes}, (∀ c ∈ w, c ∉ pat) → w ≠ [] → NoOcc pat b → NoOcc pat (a ++ (w ++ b)) := by
  intro w
  induction w generalizing a with
  | nil => intro b _ h; exact absurd rfl h
  | cons c w ih =>
    intro b hw _ hb
    by_cases hne : w = []
    · subst hne
      exact noOcc_mid (hw c (by simp)) ha hb
    · have hp : pat ≠ [] ∨ pat = [] := by cases pat <;> simp
      have h1 : NoOcc pat (a ++ [c]) := by
        rcases hp with hp | hp
        · exact noOcc_mid (hw c (by simp)) ha (noOcc_nil hp)
        · subst hp; exact absurd (List.nil_prefix) (ha 0)
      have := ih h1 (fun d hd => hw d (by simp [hd])) hne hb
      simpa using this

/-! ### The lines of a section -/

theorem join_shape {nl : Bytes} (l : List Bytes) (h : ∀ a ∈ l, a.head? = some 60 ∧ (a.getLast? = some 62 ∨ a.getLast? = some 93)) :
    (∀ c, (joinWith nl l).head? = some c → reSpace c = false) ∧ (∀ c, (joinWith nl l).getLast? = some c → reSpace c = false) := by
  induction l with
  | nil => constructor <;> · intro c hc; simp [joinWith] at hc
  | cons a l ih =>
    obtain ⟨h1, h2⟩ := h a (by simp)
    obtain ⟨_, i2⟩ := ih (fun b hb => h b (by simp [hb]))
    cases l with
    | nil =>
      simp only [joinWith]
      constructor
      · intro c hc; rw [h1] at hc; obtain rfl := Option.some.inj hc; decide
      · intro c hc
        rcases h2 with h2 | h2
        · rw [h2] at hc; obtain rfl := Option.some.inj hc; decide
        · rw [h2] at hc; obtain rfl := Option.some.inj hc; decide
    | cons b l =>
      have ha : a ≠ [] := by rintro rfl; simp at h1
      have hj : joinWith nl (b :: l) ≠ [] := by
        have hb := (h b (by simp)).1
        rw [join_cons]
        intro h0
        rw [List.append_eq_nil_iff] at h0
        rw [h0.1] at hb
        simp at hb
      have e : joinWith nl (a :: b :: l) = a ++ (nl ++ joinWith nl (b :: l)) := by simp [joinWith]
      rw [e]
      constructor
      · intro c hc
        rw [List.head?_append, h1] at hc
        simp at hc
        subst hc
        decide
      · intro c hc
        rw [List.getLast?_append, List.getLast?_append] at hc
        cases hq : (joinWith nl (b :: l)).getLast? with
        | none => exact absurd (List.getLast?_eq_none_iff.1 hq) hj
        | some q =>
          rw [hq] at hc
          simp at hc
          subst hc
          exact i2 q hq

theorem join_no {nl : Bytes} {c : UInt8} (hn : c ∉ nl) (l : List Bytes) (h : ∀ a ∈ l, c ∉ a) : c ∉ joinWith nl l := by
  induction l with
  | nil => simp [joinWith]
  | cons a l ih =>
    rw [join_cons, After]
    have := ih (fun b hb => h b (by simp [hb]))
    simp only [List.mem_append, not_or]
    refine ⟨h a (by simp), ?_⟩
    split
    · simp
    · simp [hn, this]

theorem tok_no {c : UInt8} (h1 : c ≠ 60) (h2 : c ≠ 62) {k n : Nat} (h3 : ¬ UpHex c) : c ∉ tok (hexPad k n) := by
  simp only [tok, List.mem_append, not_or]
  refine ⟨⟨by simpa using h1, fun hm => h3 ((hexPad_spec k n).1 c hm).1⟩, by simpa using h2⟩

theorem raw_no {c : UInt8} (st : Style) (hs : White st.sp) (e : Entry) (h : e.ok) (h1 : c ≠ 60) (h2 : c ≠ 62) (h3 : ¬ UpHex c)
    (h4 : reSpace c = false) (h5 : c ≠ 91) (h6 : c ≠ 93) : c ∉ e.text st := by
  have hsp : c ∉ st.sp := fun hm => by rw [hs c hm] at h4; exact absurd h4 (by decide)
  rw [Entry.raw_text st e h]
  cases e with
  | run lo hi dst => simp [Entry.raw, RawEntry.text, tok_no h1 h2 h3, hsp]
  | list lo us =>
    rcases h.2.2 with hl | hl
    · obtain ⟨u, rfl⟩ := List.length_eq_one_iff.1 hl
      simp [Entry.raw, RawEntry.text, tok_no h1 h2 h3, hsp, h5, h6]
    · obtain ⟨u, v, rfl⟩ := len2 hl
      simp [Entry.raw, RawEntry.text, tok_no h1 h2 h3, hsp, h5, h6]

theorem entry_shape (st : Style) (e : Entry) : (e.text st).head? = some 60 ∧ ((e.text st).getLast? = some 62 ∨ (e.text st).getLast? = some 93) := by
  cases e with
  | run lo hi dst =>
    refine ⟨by simp [Entry.text, Style.code], .inl ?_⟩
    have : (Entry.run lo hi dst).text st = (st.code lo ++ st.sp ++ st.code hi ++ st.sp ++ (b!"<" ++ hexPad 4 dst)) ++ [62] := by
      simp [Entry.text, uniText]
    rw [this, List.getLast?_append]
    rfl
  | list lo us =>
    refine ⟨by simp [Entry.text, Style.code], .inr ?_⟩
    have : (Entry.list lo us).text st = (st.code lo ++ st.sp ++ st.code (lo + us.length - 1) ++ st.sp ++ b!"[" ++ joinWith st.sp (us.map uniText)) ++ [93] := by
      simp [Entry.text]
    rw [this, List.getLast?_append]
    rfl

theorem pair_shape (st : Style) (p : Nat × Nat) : (st.code p.1 ++ st.sp ++ uniText p.2).head? = some 60 ∧
    ((st.code p.1 ++ st.sp ++ uniText p.2).getLast? = some 62 ∨ (st.code p.1 ++ st.sp ++ uniText p.2).getLast? = some 93) := by
  refine ⟨by simp [Style.code], .inl ?_⟩
  have : st.code p.1 ++ st.sp ++ uniText p.2 = (st.code p.1 ++ st.sp ++ (b!"<" ++ hexPad 4 p.2)) ++ [62] := by simp [uniText]
  rw [this, List.getLast?_append]
  rfl

theorem pair_no {c : UInt8} (st : Style) (hs : White st.sp) (p : Nat × Nat) (h1 : c ≠ 60) (h2 : c ≠ 62) (h3 : ¬ UpHex c)
    (h4 : reSpace c = false) : c ∉ st.code p.1 ++ st.sp ++ uniText p.2 := by
  have hsp : c ∉ st.sp := fun hm => by rw [hs c hm] at h4; exact absurd h4 (by decide)
  have := tok_no h1 h2 (k := st.digits) (n := p.1) h3
  have := tok_no h1 h2 (k := 4) (n := p.2) h3
  simp_all [Style.code, uniText, tok]

/-- The lines of a section. -/
def _root_.Pdfer.Spec.Enc.Sect.lines (st : Style) : Sect → Bytes
  | .chars l => joinWith st.nl (l.map fun p => st.code p.1 ++ st.sp ++ uniText p.2)
  | .ranges l => joinWith st.nl (l.map (Entry.text st))

def _root_.Pdfer.Spec.Enc.Sect.isChars : Sect → Bool
  | .chars _ => true
  | .ranges _ => false

def _root_.Pdfer.Spec.Enc.Sect.count : Sect → Nat
  | .chars l => l.length
  | .ranges l => l.length

def _root_.Pdfer.Spec.Enc.Sect.key (s : Sect) : Bytes := if s.isChars then b!"bfchar" else b!"bfrange"

theorem Sect.text_eq (st : Style) (s : Sect) : s.text st =
    natDec s.count ++ (b!" " ++ ((b!"begin" ++ s.key) ++ (st.nl ++ (s.lines st ++ (st.nl ++ ((b!"end" ++ s.key) ++ st.nl)))))) := by
  cases s <;> simp [Sect.text, Sect.count, Sect.key, Sect.isChars, Sect.lines]

theorem Sect.lines_shape (st : Style) (s : Sect) : (∀ c, (s.lines st).head? = some c → reSpace c = false) ∧
    (∀ c, (s.lines st).getLast? = some c → reSpace c = false) := by
  cases s with
  | chars l =>
    apply join_shape
    intro a ha
    obtain ⟨p, _, rfl⟩ := List.mem_map.1 ha
    exact pair_shape st p
  | ranges l =>
    apply join_shape
    intro a ha
    obtain ⟨e, _, rfl⟩ := List.mem_map.1 ha
    exact entry_shape st e

theorem Sect.lines_no {c : UInt8} (st : Style) (hst : st.ok) (s : Sect) (hs : s.ok) (h1 : c ≠ 60) (h2 : c ≠ 62) (h3 : ¬ UpHex c)
    (h4 : reSpace c = false) (h5 : c ≠ 91) (h6 : c ≠ 93) : c ∉ s.lines st := by
  have hnl : c ∉ st.nl := fun hm => by rw [hst.2.1 c hm] at h4; exact absurd h4 (by decide)
  cases s with
  | chars l =>
    apply join_no hnl
    intro a ha
    obtain ⟨p, _, rfl⟩ := List.mem_map.1 ha
    exact pair_no st hst.1 p h1 h2 h3 h4
  | ranges l =>
    apply join_no hnl
    intro a ha
    obtain ⟨e, he, rfl⟩ := List.mem_map.1 ha
    exact raw_no st hst.1 e (hs e he) h1 h2 h3 h4 h5 h6

/-! ### All sections -/

theorem white_not_key {nl : Bytes} (hn : White nl) (key : Bytes) (hk : key = b!"bfchar" ∨ key = b!"bfrange") :
    ∀ c ∈ nl, c ∉ b!"begin" ++ key := by
  intro c hc hm
  have : ∀ d ∈ b!"begin" ++ key, reSpace d = false := by rcases hk with rfl | rfl <;> decide
  have h := this c hm
  rw [hn c hc] at h
  exact absurd h (by decide)

theorem natDec_noOcc (key : Bytes) (hk : key = b!"bfchar" ∨ key = b!"bfrange") (n : Nat) : NoOcc (b!"begin" ++ key) (natDec n) := by
  show NoOcc (98 :: (b!"egin" ++ key)) (natDec n)
  exact noOcc_of_head (not_mem_natDec (by decide) n)

/-- The blocks of the sections of one kind. -/
theorem findAll_blocks (st : Style) (hst : st.ok) (key : Bytes) (hk : key = b!"bfchar" ∨ key = b!"bfrange") (post : Bytes)
    (hpost : NoOcc (b!"begin" ++ key) post) : ∀ (ss : List Sect), (∀ s ∈ ss, s.ok) → ∀ x : Bytes, NoOcc (b!"begin" ++ key) x →
    findAll (reBlock (b!"begin" ++ key) (b!"end" ++ key)) 0 (x ++ (st.nl ++ (ss.flatMap (Sect.text st) ++ post))) =
      (ss.filter fun s => s.key == key).map (Sect.lines st) := by
  have hp : ∀ s, reBlock (b!"begin" ++ key) (b!"end" ++ key) s ≠ none → (98 :: (b!"egin" ++ key)) <+: s := fun s h => reBlock_prefix h
  have hnw := white_not_key hst.2.1 key hk
  have h32 : ∀ c ∈ b!" ", c ∉ b!"begin" ++ key := by
    intro c hc
    rw [List.mem_singleton] at hc
    subst hc
    rcases hk with rfl | rfl <;> decide
  intro ss
  induction ss with
  | nil =>
    intro _ x hx
    rw [List.flatMap_nil, List.nil_append, findAll_past hp hnw hst.2.2 hx, findAll_noOcc hp hpost]
    rfl
  | cons s ss ih =>
    intro hok x hx
    have ih := ih (fun q hq => hok q (by simp [hq]))
    have hs := hok s (by simp)
    have hskey : s.key = b!"bfchar" ∨ s.key = b!"bfrange" := by
      rw [Sect.key]; split <;> simp
    have hx1 : NoOcc (b!"begin" ++ key) (x ++ (st.nl ++ natDec s.count)) :=
      noOcc_sep hx hnw hst.2.2 (natDec_noOcc key hk _)
    have e : x ++ (st.nl ++ ((s :: ss).flatMap (Sect.text st) ++ post)) =
        (x ++ (st.nl ++ natDec s.count)) ++ (b!" " ++ ((b!"begin" ++ s.key) ++ (st.nl ++ (s.lines st ++ (st.nl ++ ((b!"end" ++ s.key) ++
          (st.nl ++ (ss.flatMap (Sect.text st) ++ post)))))))) := by
      rw [List.flatMap_cons, Sect.text_eq]
      simp only [List.append_assoc]
    rw [e, findAll_past hp h32 (by simp) hx1]
    obtain ⟨s1, s2⟩ := Sect.lines_shape st s
    have h101 : (101 : UInt8) ∉ s.lines st :=
      Sect.lines_no st hst s hs (by decide) (by decide) (by unfold UpHex; decide) (by decide) (by decide) (by decide)
    have h98 : (98 : UInt8) ∉ s.lines st :=
      Sect.lines_no st hst s hs (by decide) (by decide) (by unfold UpHex; decide) (by decide) (by decide) (by decide)
    by_cases hkey : s.key = key
    · rw [List.filter_cons_of_pos (by simp [hkey]), List.map_cons, hkey]
      have hb := reBlock_here (beg := b!"begin" ++ key) (endk := b!"nd" ++ key) (rest := st.nl ++ (ss.flatMap (Sect.text st) ++ post))
        hst.2.1 s1 s2 h101
      have hm := findAll_here (p := reBlock (b!"begin" ++ key) (b!"end" ++ key)) (r := s.lines st)
        (m := (b!"begin" ++ key) ++ (st.nl ++ (s.lines st ++ (st.nl ++ (b!"end" ++ key))))) (rest := st.nl ++ (ss.flatMap (Sect.text st) ++ post))
        (by simp) (by
          have e2 : ((b!"begin" ++ key) ++ (st.nl ++ (s.lines st ++ (st.nl ++ (b!"end" ++ key))))) ++ (st.nl ++ (ss.flatMap (Sect.text st) ++ post)) =
            (b!"begin" ++ key) ++ (st.nl ++ (s.lines st ++ (st.nl ++ ((b!"end" ++ key) ++ (st.nl ++ (ss.flatMap (Sect.text st) ++ post)))))) := by
              simp only [List.append_assoc]
          rw [e2]; exact hb)
      have e3 : (b!"begin" ++ key) ++ (st.nl ++ (s.lines st ++ (st.nl ++ ((b!"end" ++ key) ++ (st.nl ++ (ss.flatMap (Sect.text st) ++ post)))))) =
          ((b!"begin" ++ key) ++ (st.nl ++ (s.lines st ++ (st.nl ++ (b!"end" ++ key))))) ++ (st.nl ++ (ss.flatMap (Sect.text st) ++ post)) := by
        simp only [List.append_assoc]
      rw [e3, hm]
      have := ih [] (noOcc_nil (by simp))
      rw [List.nil_append] at this
      rw [this]
    · rw [List.filter_cons_of_neg (by simp [hkey])]
      have hother : NoOcc (b!"begin" ++ key) (b!"begin" ++ s.key) ∧ NoOcc (b!"begin" ++ key) (b!"end" ++ s.key) := by
        rcases hk with rfl | rfl <;> rcases hskey with h | h <;> rw [h] at hkey ⊢
        · exact absurd rfl hkey
        · exact ⟨noOcc_iff_index.2 (by decide +kernel), noOcc_iff_index.2 (by decide +kernel)⟩
        · exact ⟨noOcc_iff_index.2 (by decide +kernel), noOcc_iff_index.2 (by decide +kernel)⟩
        · exact absurd rfl hkey
      have hl : NoOcc (b!"begin" ++ key) (s.lines st) := noOcc_of_head (pat := b!"egin" ++ key) h98
      have hx2 : NoOcc (b!"begin" ++ key) ((b!"begin" ++ s.key) ++ (st.nl ++ (s.lines st ++ (st.nl ++ (b!"end" ++ s.key))))) :=
        noOcc_sep hother.1 hnw hst.2.2 (noOcc_sep hl hnw hst.2.2 hother.2)
      have := ih _ hx2
      simp only [List.append_assoc] at this ⊢
      exact this

/-! ### The map -/

theorem Sect.fold_chars (st : Style) (hst : st.ok) : ∀ (ss : List Sect) (m : Map Int Int), (∀ s ∈ ss, s.ok) →
    ((ss.filter fun s => s.key == b!"bfchar").map (Sect.lines st)).foldl bfchar m =
      setAll m (ss.flatMap fun s => match s with
        | .chars l => l.map fun p => ((p.1 : Int), (p.2 : Int))
        | .ranges _ => []) := by
  intro ss
  induction ss with
  | nil => intro m _; rfl
  | cons s ss ih =>
    intro m h
    have ih := fun m => ih m (fun q hq => h q (by simp [hq]))
    cases s with
    | chars l =>
      rw [List.filter_cons_of_pos (by rfl), List.map_cons, List.foldl_cons, List.flatMap_cons, setAll_append, ← bfchar_eq st hst l (h (Sect.chars l) (by simp)) m,
        ← ih]
      rfl
    | ranges l =>
      rw [List.filter_cons_of_neg (by simp [Sect.key, Sect.isChars]), List.flatMap_cons, List.nil_append, ih]

theorem Sect.fold_ranges (st : Style) (hst : st.ok) : ∀ (ss : List Sect) (m : Map Int Int), (∀ s ∈ ss, s.ok) →
    ((ss.filter fun s => s.key == b!"bfrange").map (Sect.lines st)).foldl bfrange m =
      setAll m (ss.flatMap fun s => match s with
        | .chars _ => []
        | .ranges l => (l.filter Entry.isRun).flatMap Entry.assigns ++ (l.filter (fun e => !Entry.isRun e)).flatMap Entry.assigns) := by
  intro ss
  induction ss with
  | nil => intro m _; rfl
  | cons s ss ih =>
    intro m h
    have ih := fun m => ih m (fun q hq => h q (by simp [hq]))
    cases s with
    | ranges l =>
      rw [List.filter_cons_of_pos (by rfl), List.map_cons, List.foldl_cons, List.flatMap_cons, setAll_append, ← bfrange_eq st hst l (h (Sect.ranges l) (by simp)) m,
        ← ih]
      rfl
    | chars l =>
      rw [List.filter_cons_of_neg (by simp [Sect.key, Sect.isChars]), List.flatMap_cons, List.nil_append, ih]

/-- The map that is read. -/
theorem parse_cmap (st : Style) (hst : st.ok) (pre post : Bytes) (hpre : NoOcc b!"beginbf" pre) (hpost : NoOcc b!"beginbf" post)
    (ss : List Sect) (hs : ∀ s ∈ ss, s.ok) (d : Decoder) (hd : d.toU = [])
    (hf : ∀ s ∈ ss, ∀ s' ∈ ss, ∀ c u u', s.maps c u → s'.maps c u' → u = u') (k v : Int) :
    ((parseToUnicode d (cmapText st pre ss post)).toU.get k = some v ↔ ∃ c u : Nat, k = c ∧ v = u ∧ ∃ s ∈ ss, s.maps c u) := by
  have ext : ∀ (key x : Bytes), (key = b!"bfchar" ∨ key = b!"bfrange") → NoOcc b!"beginbf" x → NoOcc (b!"begin" ++ key) x := by
    intro key x hk hx j hj
    refine hx j (List.IsPrefix.trans ?_ hj)
    rcases hk with rfl | rfl
    · exact ⟨b!"char", by decide⟩
    · exact ⟨b!"range", by decide⟩
  have e : cmapText st pre ss post = pre ++ (st.nl ++ (ss.flatMap (Sect.text st) ++ post)) := by simp [cmapText]
  have b1 := findAll_blocks st hst b!"bfchar" (.inl rfl) post (ext _ _ (.inl rfl) hpost) ss hs pre (ext _ _ (.inl rfl) hpre)
  have b2 := findAll_blocks st hst b!"bfrange" (.inr rfl) post (ext _ _ (.inr rfl) hpost) ss hs pre (ext _ _ (.inr rfl) hpre)
  rw [parseToUnicode, e]
  show (((findAll (reBlock (b!"begin" ++ b!"bfrange") (b!"end" ++ b!"bfrange")) 0 _).foldl bfrange
    ((findAll (reBlock (b!"begin" ++ b!"bfchar") (b!"end" ++ b!"bfchar")) 0 _).foldl bfchar d.toU)).get k = some v ↔ _)
  rw [b1, b2, hd, Sect.fold_chars st hst ss [] hs, Sect.fold_ranges st hst ss _ hs, ← setAll_append]
  have mem : ∀ k v, (k, v) ∈ ((ss.flatMap fun s => match s with
        | .chars l => l.map fun p => ((p.1 : Int), (p.2 : Int))
        | .ranges _ => []) ++ (ss.flatMap fun s => match s with
        | .chars _ => []
        | .ranges l => (l.filter Entry.isRun).flatMap Entry.assigns ++ (l.filter (fun e => !Entry.isRun e)).flatMap Entry.assigns)) ↔
      ∃ c u : Nat, k = c ∧ v = u ∧ ∃ s ∈ ss, s.maps c u := by
    intro k v
    rw [List.mem_append, List.mem_flatMap, List.mem_flatMap]
    constructor
    · rintro (⟨s, hs, h⟩ | ⟨s, hs, h⟩)
      · cases s with
        | chars l =>
          simp only [List.mem_map] at h
          obtain ⟨⟨c, u⟩, hm, he⟩ := h
          simp only [Prod.mk.injEq] at he
          exact ⟨c, u, he.1.symm, he.2.symm, _, hs, hm⟩
        | ranges l => simp at h
      · cases s with
        | chars l => simp at h
        | ranges l =>
          simp only [List.mem_append, List.mem_flatMap, List.mem_filter] at h
          have : ∃ e ∈ l, (k, v) ∈ Entry.assigns e := by
            rcases h with ⟨e, he, h⟩ | ⟨e, he, h⟩
            · exact ⟨e, he.1, h⟩
            · exact ⟨e, he.1, h⟩
          obtain ⟨e, he, h⟩ := this
          obtain ⟨c, u, h1, h2, h3⟩ := (Entry.mem_assigns e k v).1 h
          exact ⟨c, u, h1, h2, _, hs, e, he, h3⟩
    · rintro ⟨c, u, rfl, rfl, s, hs, h⟩
      cases s with
      | chars l => exact .inl ⟨_, hs, by simp only [List.mem_map]; exact ⟨(c, u), h, rfl⟩⟩
      | ranges l =>
        obtain ⟨e, he, h⟩ := h
        refine .inr ⟨_, hs, ?_⟩
        have hm := (Entry.mem_assigns e c u).2 ⟨c, u, rfl, rfl, h⟩
        simp only [List.mem_append, List.mem_flatMap, List.mem_filter]
        cases hr : Entry.isRun e with
        | true => exact .inl ⟨e, ⟨he, hr⟩, hm⟩
        | false => exact .inr ⟨e, ⟨he, by simp [hr]⟩, hm⟩
  rw [setAll_get, mem]
  intro k v v' h1 h2
  obtain ⟨c, u, rfl, rfl, s, hs, h⟩ := (mem _ _).1 h1
  obtain ⟨c', u', hc, rfl, s', hs', h'⟩ := (mem _ _).1 h2
  have : c' = c := by omega
  subst this
  rw [hf s hs s' hs' _ _ _ h h']

end Pdfer.Enc
