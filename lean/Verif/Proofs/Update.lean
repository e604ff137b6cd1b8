import Verif.Proofs.Incremental
import Verif.Proofs.DirectObject

/-! Reading a file made of a base and appended updates. -/

namespace Pdfer.Incremental

open Pdfer.Go Pdfer.XRefTable Pdfer.XRefStream

/-! ### Trailer dictionaries -/

theorem scanDict_flat (D post : Bytes) (h1 : NoOcc b!"<<" (D ++ [62])) (h2 : NoOcc b!">>" (D ++ [10]))
    (h3 : D.getLast? ≠ some 62) : scanDict 1 (D ++ b!">>" ++ post) = D.length + 2 := by
  induction D with
  | nil => rfl
  | cons c D ih =>
    have hD : ∃ d r, D ++ b!">>" ++ post = d :: r := by
      cases D with
      | nil => exact ⟨62, 62 :: post, rfl⟩
      | cons d D => exact ⟨d, D ++ b!">>" ++ post, rfl⟩
    obtain ⟨d, r, hr⟩ := hD
    rw [List.cons_append, List.cons_append, hr, scanDict, if_neg, if_neg, ← hr, ih]
    · simp; omega
    · intro j hj; exact h1 (j + 1) (by simpa using hj)
    · intro j hj; exact h2 (j + 1) (by simpa using hj)
    · cases D with
      | nil => simp
      | cons x D => simpa [List.getLast?_cons_cons] using h3
    · rintro ⟨rfl, rfl⟩
      cases D with
      | nil => simp at h3
      | cons x D =>
        simp at hr
        obtain ⟨rfl, _⟩ := hr
        exact h2 0 ⟨D ++ [10], rfl⟩
    · rintro ⟨rfl, rfl⟩
      cases D with
      | nil => simp at hr
      | cons x D =>
        simp at hr
        obtain ⟨rfl, _⟩ := hr
        exact h1 0 ⟨D ++ [62], rfl⟩

theorem trailerDict_eq (A D post : Bytes) (hA : (116 : UInt8) ∉ A) (h1 : NoOcc b!"<<" (D ++ [62]))
    (h2 : NoOcc b!">>" (D ++ [10])) (h3 : D.getLast? ≠ some 62) :
    trailerDict (A ++ b!"trailer\n<<" ++ D ++ b!">>" ++ post) = some (b!"<<" ++ D ++ b!">>") := by
  unfold trailerDict
  have hi : index b!"trailer" (A ++ b!"trailer\n<<" ++ D ++ b!">>" ++ post) = some A.length := by
    rw [show A ++ b!"trailer\n<<" ++ D ++ b!">>" ++ post = A ++ (b!"trailer" ++ (b!"\n<<" ++ D ++ b!">>" ++ post)) by
      simp [List.append_assoc]]
    rw [index_skip (c := 116) hA, index_here (List.prefix_append _ _)]
    simp
  rw [hi]
  simp only [Option.bind_some]
  have hd : (A ++ b!"trailer\n<<" ++ D ++ b!">>" ++ post).drop (A.length + 7) = 10 :: (b!"<<" ++ (D ++ b!">>" ++ post)) := by
    rw [show A ++ b!"trailer\n<<" ++ D ++ b!">>" ++ post = (A ++ b!"trailer") ++ (10 :: (b!"<<" ++ (D ++ b!">>" ++ post))) by
      simp [List.append_assoc]]
    rw [show A.length + 7 = (A ++ b!"trailer").length by simp, List.drop_left]
  rw [hd]
  have hi2 : index b!"<<" (10 :: (b!"<<" ++ (D ++ b!">>" ++ post))) = some 1 := by
    rw [show (10 : UInt8) :: (b!"<<" ++ (D ++ b!">>" ++ post)) = [10] ++ (b!"<<" ++ (D ++ b!">>" ++ post)) from rfl,
      index_skip (c := 60) (by decide), index_here (List.prefix_append _ _)]
    rfl
  rw [hi2]
  simp only [Option.map_some, List.drop_succ_cons, List.drop_zero]
  congr 1
  have : (b!"<<" ++ (D ++ b!">>" ++ post)).drop 2 = D ++ b!">>" ++ post := rfl
  rw [this, scanDict_flat D post h1 h2 h3]
  rw [show b!"<<" ++ (D ++ b!">>" ++ post) = (b!"<<" ++ D ++ b!">>") ++ post by simp [List.append_assoc]]
  rw [List.take_append_of_le_length (by simp; omega), List.take_of_length_le (by simp; omega)]

/-! ### Sections -/

theorem split_lines_append (L : List Bytes) (h : ∀ l ∈ L, (10 : UInt8) ∉ l) (rest : Bytes) :
    split 10 (nl L ++ rest) = L ++ split 10 rest := by
  induction L with
  | nil => rfl
  | cons l ls ih =>
    unfold nl at *
    rw [List.map_cons, List.flatten_cons, List.append_assoc, List.append_assoc, List.singleton_append,
      split_cons 10 l _ (h l (by simp)), ih (fun x hx => h x (by simp [hx]))]
    rfl

theorem parseSection_lines (pre : Bytes) (L : List Bytes) (hL : ∀ l ∈ L, (10 : UInt8) ∉ l)
    (hP : ∀ l ∈ L, XRefTable.Plain l) (post : Bytes) (hwin : (b!"xref\n" ++ nl L ++ b!"trailer\n").length ≤ window) :
    parseSection (pre ++ (b!"xref\n" ++ nl L ++ b!"trailer\n" ++ post)) pre.length =
      (L.foldl (fun st l => tableStep st (fields l)) st0).objs := by
  unfold parseSection
  simp only [List.drop_left]
  have ht : (b!"xref\n" ++ nl L ++ b!"trailer\n" ++ post).take window =
      nl (b!"xref" :: (L ++ [b!"trailer"])) ++ post.take (window - (b!"xref\n" ++ nl L ++ b!"trailer\n").length) := by
    rw [List.take_append, List.take_of_length_le hwin]
    congr 1
    simp [nl]
  rw [ht, split_lines_append]
  · simp only [List.cons_append]
    rw [if_pos (by decide)]
    rw [List.append_assoc, List.singleton_append, section_append _ _ hP]
  · intro l hl
    rcases List.mem_cons.1 hl with rfl | hl
    · decide
    · rcases List.mem_append.1 hl with hl | hl
      · exact hL l hl
      · simp at hl; subst hl; decide

/-! ### The last startxref -/

theorem getLast_sorted {l : List Nat} (h : l.Pairwise (· < ·)) {m : Nat} (hm : m ∈ l) (hmax : ∀ x ∈ l, x ≤ m) :
    l.getLast? = some m := by
  induction l with
  | nil => simp at hm
  | cons x l ih =>
    have hp := List.pairwise_cons.1 h
    cases l with
    | nil => simp at hm; subst hm; rfl
    | cons y l =>
      rw [List.getLast?_cons_cons]
      apply ih hp.2
      · rcases List.mem_cons.1 hm with rfl | hm
        · have := hmax y (by simp)
          have := hp.1 y (by simp)
          omega
        · exact hm
      · intro z hz; exact hmax z (by simp [hz])

theorem searchWith_after {α : Type} {p : Bytes → Option α} {pat a s : Bytes} {c : UInt8} {r : α} (hc : c ∉ pat)
    (hpat : pat ≠ []) (hp : ∀ s, p s ≠ none → pat <+: s) (ha : NoOcc pat a) (hs : p s = some r) :
    searchWith p (a ++ c :: s) = some r := by
  have hkey : ∀ a, NoOcc pat a → searchWith p (a ++ c :: s) = some r := by
    intro a
    induction a with
    | nil =>
      intro _
      rw [List.nil_append, searchWith]
      have : p (c :: s) = none := by
        apply Classical.byContradiction
        intro hne
        obtain ⟨t, ht⟩ := hp _ hne
        cases pat with
        | nil => exact hpat rfl
        | cons x pat =>
          simp at ht
          exact hc (by simp [ht.1])
      rw [this]
      exact searchWith_here hs
    | cons x a ih =>
      intro hno
      rw [List.cons_append, searchWith]
      have : p (x :: (a ++ c :: s)) = none := by
        apply Classical.byContradiction
        intro hne
        obtain ⟨t, ht⟩ := hp _ hne
        rw [← List.cons_append] at ht
        by_cases hlen : pat.length ≤ (x :: a).length
        · apply hno 0
          refine ⟨(x :: a).drop pat.length, ?_⟩
          have h2 : pat = ((x :: a) ++ c :: s).take pat.length := by rw [← ht]; simp
          rw [List.take_append_of_le_length hlen] at h2
          conv => lhs; lhs; rw [h2]
          exact List.take_append_drop _ _
        · apply hc
          have h2 : pat = ((x :: a) ++ c :: s).take pat.length := by rw [← ht]; simp
          rw [h2, List.take_append]
          apply List.mem_append_right
          rw [show pat.length - (x :: a).length = (pat.length - (x :: a).length - 1) + 1 by omega]
          simp
      rw [this]
      exact ih (fun j hj => hno (j + 1) (by simpa using hj))
  exact hkey a ha

theorem reKeyNum_prefix (key s : Bytes) (h : reKeyNum key s ≠ none) : key <+: s := by
  unfold reKeyNum at h
  apply reLit_prefix
  intro hn
  rw [hn] at h
  exact h rfl

theorem reKeyNum_nl (key : Bytes) (n : Nat) (s : Bytes) (h : ∀ c, s.head? = some c → isDigit c = false) :
    reKeyNum key (key ++ (10 :: (natDec n ++ s))) = some (natDec n) := by
  unfold reKeyNum
  rw [reLit_append, Option.bind_some]
  have : reSp1 (10 :: (natDec n ++ s)) = some (natDec n ++ s) := by
    simp only [reSp1]
    rw [if_pos (by decide)]
    have hh := natDec_head n s
    cases hx : natDec n ++ s with
    | nil => rfl
    | cons d r => rw [List.dropWhile_cons, isDigit_not_reSpace (hh d (by rw [hx]; rfl))]; rfl
  rw [this, Option.bind_some, reNum_natDec h]
  rfl

theorem atoiMag_natDec (n : Nat) (h : n ≤ 9223372036854775807) : atoiMag 9223372036854775807 (natDec n) = some n := by
  unfold atoiMag
  rw [if_neg (natDec_ne_nil n), if_pos (by rw [List.all_eq_true]; exact natDec_digits n), digitsVal_natDec, if_pos h]

theorem natDec_length_int64 (n : Nat) (h : n ≤ 9223372036854775807) : (natDec n).length ≤ 19 :=
  natDec_length_le 19 n (by decide) (by omega)

theorem findLast_eq (X : Bytes) (p : Nat) (hp : p ≤ 9223372036854775807)
    (hno : NoOcc b!"startxref" (X.drop (X.length + 12 + (natDec p).length - 100))) :
    findLastStartXRef (X ++ (10 :: (b!"startxref\n" ++ natDec p ++ b!"\n%%EOF\n"))) = some p := by
  have hlen := natDec_length_int64 p hp
  have hfile : X ++ (10 :: (b!"startxref\n" ++ natDec p ++ b!"\n%%EOF\n")) =
      (X ++ (10 :: (b!"startxref\n" ++ natDec p ++ b!"\n"))) ++ b!"%%EOF\n" := by simp [List.append_assoc]
  have hY : (X ++ (10 :: (b!"startxref\n" ++ natDec p ++ b!"\n"))).length = X.length + 12 + (natDec p).length := by
    simp; omega
  have hlast : (findAllEOF (X ++ (10 :: (b!"startxref\n" ++ natDec p ++ b!"\n%%EOF\n")))).getLast? =
      some (X.length + 12 + (natDec p).length) := by
    apply getLast_sorted (findAllEOF_sorted _)
    · rw [mem_findAllEOF, hfile, ← hY, List.drop_left]; decide
    · intro x hx
      have := eof_fits ((mem_findAllEOF _ _).1 hx)
      rw [hfile, List.length_append, hY] at this
      simp at this
      apply Classical.byContradiction
      intro hn
      have hx' : x = X.length + 12 + (natDec p).length + 1 := by omega
      rw [mem_findAllEOF, hfile, hx', ← hY, List.drop_append, List.drop_of_length_le (by omega)] at hx
      simp at hx
  unfold findLastStartXRef
  rw [hlast]
  have htake : (X ++ (10 :: (b!"startxref\n" ++ natDec p ++ b!"\n%%EOF\n"))).take (X.length + 12 + (natDec p).length) =
      X ++ (10 :: (b!"startxref\n" ++ natDec p ++ b!"\n")) := by
    rw [hfile, ← hY, List.take_left]
  simp only [htake]
  rw [List.drop_append_of_le_length (by omega)]
  have hs : reKeyNum b!"startxref" (b!"startxref\n" ++ natDec p ++ b!"\n") = some (natDec p) := by
    have := reKeyNum_nl b!"startxref" p b!"\n" (by intro c hc; simp at hc; subst hc; decide)
    simpa [List.append_assoc] using this
  rw [searchWith_after (by decide) (by decide) (reKeyNum_prefix _) hno hs]
  exact atoiMag_natDec p hp

/-! ### Chains -/

/-- The offsets of the sections, newest first; each section's trailer points to the next, whatever
follows in the file. -/
def Chain (b : Bytes) : List Nat → Prop
  | [] => False
  | [p] => 0 < p ∧ p < b.length ∧ ∀ post, findPrevOffset (b ++ post) p = none
  | p :: q :: r => q < p ∧ p < b.length ∧ (∀ post, findPrevOffset (b ++ post) p = some q) ∧ Chain b (q :: r)

theorem Chain.mono {b : Bytes} : ∀ {offs : List Nat}, Chain b offs → ∀ x, Chain (b ++ x) offs
  | [], h, _ => h
  | [p], ⟨h1, h2, h3⟩, x => ⟨h1, by simp; omega, fun post => by rw [List.append_assoc]; exact h3 _⟩
  | p :: q :: r, ⟨h1, h2, h3, h4⟩, x =>
    ⟨h1, by simp; omega, fun post => by rw [List.append_assoc]; exact h3 _, Chain.mono h4 x⟩

theorem Chain.head {b : Bytes} {p : Nat} {r : List Nat} (h : Chain b (p :: r)) : 0 < p ∧ p < b.length := by
  induction r generalizing p with
  | nil => exact ⟨h.1, h.2.1⟩
  | cons q r ih => exact ⟨Nat.lt_of_le_of_lt (Nat.zero_le q) h.1, h.2.1⟩

theorem Chain.run {b : Bytes} (post : Bytes) : ∀ (r : List Nat) (p : Nat) (visited acc : List Nat) (fuel : Nat),
    Chain b (p :: r) → (∀ v ∈ visited, p < v) → r.length < fuel →
    prevChain (b ++ post) fuel visited p acc = some (r.reverse ++ acc) := by
  intro r
  induction r with
  | nil =>
    intro p visited acc fuel h hv hf
    obtain ⟨fuel, rfl⟩ : ∃ k, fuel = k + 1 := ⟨fuel - 1, by omega⟩
    rw [prevChain, h.2.2 post, if_pos ⟨h.1, fun hm => by have := hv p hm; omega⟩]
    rfl
  | cons q r ih =>
    intro p visited acc fuel h hv hf
    obtain ⟨fuel, rfl⟩ : ∃ k, fuel = k + 1 := ⟨fuel - 1, by omega⟩
    obtain ⟨h1, h2, h3, h4⟩ := h
    have hq := Chain.head h4
    rw [prevChain, h3 post, if_pos ⟨by omega, fun hm => by have := hv p hm; omega⟩]
    simp only
    rw [if_pos ⟨hq.1, by simp; omega⟩, ih q (p :: visited) (q :: acc) fuel h4 _ (by simp at hf; omega)]
    · simp
    · intro v hv'
      rcases List.mem_cons.1 hv' with rfl | hv'
      · exact h1
      · have := hv v hv'; omega

theorem chain_length {b : Bytes} : ∀ (r : List Nat) (p : Nat), Chain b (p :: r) → r.length < p := by
  intro r
  induction r with
  | nil => intro p h; exact h.1
  | cons q r ih =>
    intro p h
    have := ih q h.2.2.2
    have := h.1
    simp; omega

theorem Chain.offsets {b : Bytes} {p : Nat} {r : List Nat} (h : Chain b (p :: r)) (post : Bytes) :
    chainOffsets (b ++ post) p = some (p :: r).reverse := by
  unfold chainOffsets
  have h1 := chain_length r p h
  have h2 := (Chain.head h).2
  rw [Chain.run post r p [] [p] _ h (by simp) (by simp; omega)]
  simp

theorem parseSections_snoc (unz : Bytes → Option Bytes) (pdf : Bytes) (os : List Nat) (o : Nat) (ss : List Section)
    (s : Section) (h1 : parseSections unz pdf os = .ok ss) (h2 : parseXRefSection unz pdf o = .ok s) :
    parseSections unz pdf (os ++ [o]) = .ok (ss ++ [s]) := by
  induction os generalizing ss with
  | nil =>
    simp [parseSections] at h1
    subst h1
    simp [parseSections, h2, Res.bind]
  | cons x os ih =>
    rw [List.cons_append]
    unfold parseSections at h1 ⊢
    cases hx : parseXRefSection unz pdf x with
    | panic => rw [hx] at h1; simp at h1
    | err => rw [hx] at h1; simp only at h1 ⊢; exact ih ss h1
    | ok s0 =>
      rw [hx] at h1
      simp only at h1 ⊢
      cases hp : parseSections unz pdf os with
      | panic => rw [hp] at h1; simp [Res.bind] at h1
      | err => rw [hp] at h1; simp [Res.bind] at h1
      | ok ss0 =>
        rw [hp] at h1
        simp [Res.bind] at h1
        subst h1
        rw [ih ss0 hp]
        rfl

/-- A file whose sections are known, whatever is appended to it. -/
structure Good (unz : Bytes → Option Bytes) (f : Spec.File) (offs : List Nat) (ss : List Section) : Prop where
  last : findLastStartXRef f.bytes = some f.xref
  chain : Chain f.bytes (f.xref :: offs)
  secs : ∀ post, parseSections unz (f.bytes ++ post) (f.xref :: offs).reverse = .ok ss
  nonempty : ss ≠ []

theorem Good.read {unz : Bytes → Option Bytes} {f : Spec.File} {offs : List Nat} {ss : List Section}
    (h : Good unz f offs ss) : readSections unz f.bytes = .ok ss := by
  unfold readSections
  rw [h.last]
  have h1 := Chain.offsets h.chain []
  have h2 := h.secs []
  rw [List.append_nil] at h1 h2
  simp only [Res.ofOption, Res.bind, h1, h2]
  rw [if_neg h.nonempty]

/-! ### One update -/

/-- The entry lines of an update. -/
def updLines (ps : List (Nat × Nat)) : List Bytes :=
  ps.flatMap (fun e => [natDec e.1 ++ b!" 1", padDec 10 e.2 ++ b!" 00000 n "])

theorem sectionText_nl (ps : List (Nat × Nat)) : Spec.sectionText ps = b!"xref\n" ++ nl (updLines ps) := by
  unfold Spec.sectionText
  congr 1
  induction ps with
  | nil => rfl
  | cons e ps ih =>
    unfold updLines at *
    rw [List.flatMap_cons, ih, List.flatMap_cons, nl_append]
    simp [Spec.entryText, nl]

theorem updLines_ok (ps : List (Nat × Nat)) : ∀ l ∈ updLines ps, (10 : UInt8) ∉ l ∧ XRefTable.Plain l ∧ (116 : UInt8) ∉ l ∧
    (115 : UInt8) ∉ l := by
  intro l hl
  obtain ⟨e, _, he⟩ := List.mem_flatMap.1 hl
  simp only [List.mem_cons, List.not_mem_nil, or_false] at he
  have hpl : ∀ (d : Bytes) (r : Bytes), d ≠ [] → (∀ c ∈ d, isDigit c = true) → XRefTable.Plain (d ++ r) := by
    intro d r h0 hd
    cases d with
    | nil => exact absurd rfl h0
    | cons c d =>
      refine ⟨c, d ++ r, rfl, isDigit_not_space (hd c (by simp)), ?_⟩
      rintro rfl
      exact absurd (hd 116 (by simp)) (by decide)
  have hn : ∀ (d r : Bytes) (x : UInt8), isDigit x = false → (∀ c ∈ d, isDigit c = true) → x ∉ r → x ∉ d ++ r := by
    intro d r x hx hd hr hm
    rcases List.mem_append.1 hm with hm | hm
    · rw [hd x hm] at hx; exact absurd hx (by decide)
    · exact hr hm
  rcases he with rfl | rfl
  · exact ⟨hn _ _ _ (by decide) (natDec_digits _) (by decide), hpl _ _ (natDec_ne_nil _) (natDec_digits _),
      hn _ _ _ (by decide) (natDec_digits _) (by decide), hn _ _ _ (by decide) (natDec_digits _) (by decide)⟩
  · exact ⟨hn _ _ _ (by decide) (padDec_digits _ _) (by decide), hpl _ _ (padDec_ne_nil _ _) (padDec_digits _ _),
      hn _ _ _ (by decide) (padDec_digits _ _) (by decide), hn _ _ _ (by decide) (padDec_digits _ _) (by decide)⟩

theorem nl_not_mem {L : List Bytes} {c : UInt8} (hc : c ≠ 10) (h : ∀ l ∈ L, c ∉ l) : c ∉ nl L := by
  unfold nl
  intro hm
  obtain ⟨l, hl, hm⟩ := List.mem_flatten.1 hm
  obtain ⟨l', hl', rfl⟩ := List.mem_map.1 hl
  rcases List.mem_append.1 hm with hm | hm
  · exact h l' hl' hm
  · simp at hm; exact hc hm

theorem step_sub (st : St) (n : Nat) (hn : n ≤ 9223372036854775807) :
    tableStep st (fields (natDec n ++ b!" 1")) = { st with cur := (n : Int), inSub := true } := by
  have hf : fields (natDec n ++ b!" 1") = [natDec n, b!"1"] := by
    rw [show natDec n ++ b!" 1" = natDec n ++ 32 :: b!"1" from rfl,
      fields_word_space _ (digits_no_space (natDec_digits n)) (natDec_ne_nil n) 32 (by decide),
      fields_word _ (by decide) (by decide)]
  rw [hf]
  unfold tableStep
  simp only [List.length_cons, List.length_nil, List.getD_cons_zero, List.getD_cons_succ, atoi_natDec n hn]
  rfl

theorem step_upd (st : St) (hs : st.inSub = true) (p : Nat) (hp : p ≤ 9223372036854775807) :
    tableStep st (fields (padDec 10 p ++ b!" 00000 n ")) =
      { cur := st.cur + 1, inSub := true, objs := st.objs.set st.cur (p : Int) } := by
  have h := step_entry st hs p 0 10 5 110 (by omega) (by omega)
  have hf := entry_fields p 0 10 5 110 (by decide)
  rw [show padDec 10 p ++ b!" 00000 n " = padDec 10 p ++ b!" " ++ padDec 5 0 ++ [32, 110, 32] by
    simp [List.append_assoc]; rfl]
  rw [hf, h]
  simp [hs]

theorem updLines_fold (ps : List (Nat × Nat)) (h : ∀ e ∈ ps, e.1 ≤ 9223372036854775807 ∧ e.2 ≤ 9223372036854775807) :
    ∀ st : St, ((updLines ps).foldl (fun st l => tableStep st (fields l)) st).objs =
      mergeInto st.objs (ps.map fun e => ((e.1 : Int), (e.2 : Int))) := by
  induction ps with
  | nil => intro st; rfl
  | cons e ps ih =>
    intro st
    have he := h e (by simp)
    have : updLines (e :: ps) = (natDec e.1 ++ b!" 1") :: (padDec 10 e.2 ++ b!" 00000 n ") :: updLines ps := rfl
    rw [this, List.foldl_cons, List.foldl_cons, step_sub _ _ he.1, step_upd _ rfl _ he.2,
      ih (fun x hx => h x (by simp [hx]))]
    rfl

/-- The trailer dictionary text of an update. -/
def updDict (u : Spec.Update) (prev : Nat) : Bytes :=
  b!" /Size " ++ natDec u.size ++ b!" /Root " ++ natDec u.root ++ b!" 0 R /Prev " ++ natDec prev ++ b!" "

theorem append_bytes (f : Spec.File) (u : Spec.Update) : (Spec.append f u).bytes =
    (f.bytes ++ Spec.objectsText u.objs) ++ (b!"xref\n" ++ nl (updLines (Spec.places f.bytes.length u.objs)) ++
      b!"trailer\n" ++ (b!"<<" ++ updDict u f.xref ++ b!">>\nstartxref\n" ++
        natDec (f.bytes ++ Spec.objectsText u.objs).length ++ b!"\n%%EOF\n")) := by
  unfold Spec.append
  simp only [sectionText_nl, updDict]
  simp [List.append_assoc]

theorem not_mem_updDict (u : Spec.Update) (prev : Nat) (c : UInt8) (h : isDigit c = false)
    (h2 : c ∉ b!" /Size  /Root  0 R /Prev  ") : c ∉ updDict u prev := by
  unfold updDict
  simp only [List.mem_append, not_or]
  simp only [List.mem_cons, not_or] at h2
  refine ⟨⟨⟨⟨⟨⟨?_, not_mem_natDec h _⟩, ?_⟩, not_mem_natDec h _⟩, ?_⟩, not_mem_natDec h _⟩, ?_⟩ <;>
    simp [h2]

theorem updDict_prev (u : Spec.Update) (prev : Nat) :
    searchWith (reKeyNum b!"/Prev") (b!"<<" ++ updDict u prev ++ b!">>") = some (natDec prev) := by
  have : b!"<<" ++ updDict u prev ++ b!">>" =
      (b!"<< /Size " ++ natDec u.size ++ b!" /Root " ++ natDec u.root ++ b!" 0 R") ++
        32 :: (b!"/Prev" ++ 32 :: (natDec prev ++ b!" >>")) := by
    simp [updDict, List.append_assoc]
  rw [this]
  apply searchWith_after (by decide) (by decide) (reKeyNum_prefix _)
  · apply noOcc_of_mem (c := 80) (by decide)
    simp only [List.mem_append, not_or]
    exact ⟨⟨⟨⟨by decide, not_mem_natDec (by decide) _⟩, by decide⟩, not_mem_natDec (by decide) _⟩, by decide⟩
  · exact reKeyNum_natDec (by intro c hc; simp at hc; subst hc; decide)

/-- A section text at the end of `pre`. -/
theorem section_read (unz : Bytes → Option Bytes) (pre : Bytes) (L : List Bytes) (D post : Bytes)
    (hL : ∀ l ∈ L, (10 : UInt8) ∉ l ∧ XRefTable.Plain l ∧ (116 : UInt8) ∉ l)
    (h1 : NoOcc b!"<<" (D ++ [62])) (h2 : NoOcc b!">>" (D ++ [10])) (h3 : D.getLast? ≠ some 62)
    (hwin : (b!"xref\n" ++ nl L ++ b!"trailer\n").length ≤ window) :
    let file := pre ++ (b!"xref\n" ++ nl L ++ b!"trailer\n" ++ (b!"<<" ++ D ++ b!">>" ++ post))
    findPrevOffset file pre.length =
      (searchWith (reKeyNum b!"/Prev") (b!"<<" ++ D ++ b!">>")).bind (atoiMag 9223372036854775807) ∧
    parseXRefSection unz file pre.length =
      .ok (withTrailer (L.foldl (fun st l => tableStep st (fields l)) st0).objs [] (b!"<<" ++ D ++ b!">>")) := by
  intro file
  have hdrop : file.drop pre.length = b!"xref\n" ++ nl L ++ b!"trailer\n" ++ (b!"<<" ++ D ++ b!">>" ++ post) := by
    simp only [file, List.drop_left]
  have hlt : pre.length < file.length := by simp only [file]; simp
  have htr : trailerDict (file.drop pre.length) = some (b!"<<" ++ D ++ b!">>") := by
    rw [hdrop]
    have := trailerDict_eq (b!"xref\n" ++ nl L) D post (by
      simp only [List.mem_append, not_or]
      exact ⟨by decide, nl_not_mem (by decide) (fun l hl => (hL l hl).2.2)⟩) h1 h2 h3
    simpa [List.append_assoc] using this
  have hx : (b!"xref").isPrefixOf (file.drop pre.length) = true := by
    rw [hdrop]; simp [List.isPrefixOf]
  refine ⟨?_, ?_⟩
  · unfold findPrevOffset
    rw [if_neg (by omega)]
    simp only [hx, if_true, htr, Option.bind_some]
  · unfold parseXRefSection
    rw [if_neg (by omega)]
    simp only [hx, if_true, htr, Option.getD_some]
    rw [parseSection_lines pre L (fun l hl => (hL l hl).1) (fun l hl => (hL l hl).2.1) _ hwin]

/-- What an update must satisfy. -/
structure UpdOK (f : Spec.File) (u : Spec.Update) : Prop where
  nonempty : u.objs ≠ []
  contents : ∀ e ∈ u.objs, NoOcc b!"startxref" e.2
  numbers : ∀ e ∈ u.objs, e.1 ≤ 9223372036854775807
  window : (Spec.sectionText (Spec.places f.bytes.length u.objs)).length + 8 ≤ window
  size : (Spec.append f u).bytes.length ≤ 9223372036854775807

theorem places_le (pos : Nat) (objs : List (Nat × Bytes)) : ∀ e ∈ Spec.places pos objs,
    pos ≤ e.2 ∧ e.2 ≤ pos + (Spec.objectsText objs).length ∧ ∃ c, (e.1, c) ∈ objs := by
  induction objs generalizing pos with
  | nil => simp [Spec.places]
  | cons o objs ih =>
    obtain ⟨n, c⟩ := o
    intro e he
    rcases List.mem_cons.1 he with rfl | he
    · exact ⟨Nat.le_refl _, by simp, c, by simp⟩
    · obtain ⟨h1, h2, c', h3⟩ := ih _ e he
      refine ⟨by omega, ?_, c', by simp [h3]⟩
      have : (Spec.objectsText ((n, c) :: objs)).length = (Spec.objectText n c).length + (Spec.objectsText objs).length := by
        simp [Spec.objectsText]
      omega

theorem padDec_length_ge (k n : Nat) : k ≤ (padDec k n).length := by
  simp [padDec]; omega

theorem natDec_pos (n : Nat) : 1 ≤ (natDec n).length := by
  have := natDec_ne_nil n
  cases h : natDec n with
  | nil => exact absurd h this
  | cons c r => simp

theorem objectsText_noStart (objs : List (Nat × Bytes)) (T : Bytes) (hT : (115 : UInt8) ∉ T)
    (h : ∀ e ∈ objs, NoOcc b!"startxref" e.2) : NoOcc b!"startxref" (Spec.objectsText objs ++ T) := by
  induction objs with
  | nil => exact noOcc_of_head hT
  | cons o objs ih =>
    obtain ⟨n, c⟩ := o
    have : Spec.objectsText ((n, c) :: objs) ++ T =
        (natDec n ++ b!" 0 obj") ++ 10 :: (c ++ 10 :: (b!"endobj" ++ 10 :: (Spec.objectsText objs ++ T))) := by
      simp [Spec.objectsText, Spec.objectText, List.append_assoc]
    rw [this]
    apply noOcc_mid (by decide)
    · apply noOcc_of_head
      rw [List.mem_append, not_or]
      exact ⟨not_mem_natDec (by decide) _, by decide⟩
    · have hc : NoOcc b!"startxref" c := h (n, c) (by simp)
      apply noOcc_mid (by decide) hc
      apply noOcc_mid (by decide) (noOcc_of_head (by decide))
      exact ih (fun e he => h e (by simp [he]))

/-- The section an update adds. -/
def updSection (f : Spec.File) (u : Spec.Update) : Section :=
  withTrailer (mergeInto [] ((Spec.places f.bytes.length u.objs).map fun e => ((e.1 : Int), (e.2 : Int)))) []
    (b!"<<" ++ updDict u f.xref ++ b!">>")

theorem reKeyRef_prefix (key s : Bytes) (h : reKeyRef key s ≠ none) : key <+: s := by
  unfold reKeyRef at h
  apply reLit_prefix
  intro hn
  rw [hn] at h
  exact h rfl

theorem reKeyRef_natDec (key : Bytes) (n : Nat) (s : Bytes) :
    reKeyRef key (key ++ (32 :: (natDec n ++ b!" 0 R" ++ s))) = some (natDec n ++ b!" 0 R") := by
  unfold reKeyRef
  rw [reLit_append, Option.bind_some]
  have h1 : reSp1 (32 :: (natDec n ++ b!" 0 R" ++ s)) = some (natDec n ++ (b!" 0 R" ++ s)) := by
    simp only [reSp1]
    rw [if_pos (by decide), List.append_assoc]
    have hh := natDec_head n (b!" 0 R" ++ s)
    cases hx : natDec n ++ (b!" 0 R" ++ s) with
    | nil => rfl
    | cons d r => rw [List.dropWhile_cons, isDigit_not_reSpace (hh d (by rw [hx]; rfl))]; rfl
  rw [h1, Option.bind_some, reNum_natDec (by intro c hc; simp at hc; subst hc; decide), Option.bind_some]
  have h2 : reSp1 (b!" 0 R" ++ s) = some (b!"0 R" ++ s) := by
    simp only [reSp1, List.cons_append, List.nil_append]
    rw [if_pos (by decide), List.dropWhile_cons]
    rfl
  simp only [h2, Option.bind_some]
  have h3 : reNum (b!"0 R" ++ s) = some ([48], b!" R" ++ s) := by
    have := reNum_natDec (n := 0) (s := b!" R" ++ s) (by intro c hc; simp at hc; subst hc; decide)
    simpa [natDec, natDecAux, digit] using this
  rw [h3]
  have h4 : reSp1 (b!" R" ++ s) = some (b!"R" ++ s) := by
    simp only [reSp1, List.cons_append, List.nil_append]
    rw [if_pos (by decide), List.dropWhile_cons]
    rfl
  simp only [Option.bind_some, h4]
  rw [reLit_append, Option.map_some]
  congr 1
  rw [← List.append_assoc, List.take_left']
  simp; omega

theorem updSection_root (f : Spec.File) (u : Spec.Update) : (updSection f u).root = natDec u.root ++ b!" 0 R" := by
  show (searchWith (reKeyRef b!"/Root") (b!"<<" ++ updDict u f.xref ++ b!">>")).getD [] = _
  have : b!"<<" ++ updDict u f.xref ++ b!">>" =
      (b!"<< /Size " ++ natDec u.size) ++ 32 :: (b!"/Root" ++ (32 :: (natDec u.root ++ b!" 0 R" ++ (b!" /Prev " ++ natDec f.xref ++ b!" >>")))) := by
    simp [updDict, List.append_assoc]
  rw [this, searchWith_after (by decide) (by decide) (reKeyRef_prefix _) _ (reKeyRef_natDec _ _ _)]
  · rfl
  · apply noOcc_of_mem (c := 82) (by decide)
    simp only [List.mem_append, not_or]
    exact ⟨by decide, not_mem_natDec (by decide) _⟩

theorem updSection_size (f : Spec.File) (u : Spec.Update) (h : u.size ≤ 9223372036854775807) : (updSection f u).size = u.size := by
  show ((searchWith (reKeyNum b!"/Size") (b!"<<" ++ updDict u f.xref ++ b!">>")).map atoiClamp).getD 0 = _
  have : b!"<<" ++ updDict u f.xref ++ b!">>" =
      b!"<<" ++ 32 :: (b!"/Size" ++ 32 :: (natDec u.size ++ (b!" /Root " ++ natDec u.root ++ b!" 0 R /Prev " ++ natDec f.xref ++ b!" >>"))) := by
    simp [updDict, List.append_assoc]
  rw [this, searchWith_after (by decide) (by decide) (reKeyNum_prefix _) (noOcc_iff_index.2 (by decide))
    (reKeyNum_natDec (by intro c hc; simp at hc; subst hc; decide))]
  simp [atoiClamp_natDec _ h]

theorem updDict_last (u : Spec.Update) (prev : Nat) : (updDict u prev).getLast? = some 32 := by
  unfold updDict
  rw [List.getLast?_append]
  rfl

theorem good_append {unz : Bytes → Option Bytes} {f : Spec.File} {offs : List Nat} {ss : List Section}
    (h : Good unz f offs ss) (u : Spec.Update) (hu : UpdOK f u) :
    Good unz (Spec.append f u) (f.xref :: offs) (ss ++ [updSection f u]) := by
  have hb := append_bytes f u
  have hfx := Chain.head h.chain
  have hxref : (Spec.append f u).xref = (f.bytes ++ Spec.objectsText u.objs).length := rfl
  have hsize := hu.size
  have hpre : (f.bytes ++ Spec.objectsText u.objs).length < (Spec.append f u).bytes.length := by
    rw [hb, List.length_append]
    simp
  have hprev : f.xref ≤ 9223372036854775807 := by
    have : f.bytes.length ≤ (f.bytes ++ Spec.objectsText u.objs).length := by simp
    omega
  have hL : ∀ l ∈ updLines (Spec.places f.bytes.length u.objs), (10 : UInt8) ∉ l ∧ XRefTable.Plain l ∧ (116 : UInt8) ∉ l :=
    fun l hl => ⟨(updLines_ok _ l hl).1, (updLines_ok _ l hl).2.1, (updLines_ok _ l hl).2.2.1⟩
  have hD1 : NoOcc b!"<<" (updDict u f.xref ++ [62]) := by
    apply noOcc_of_head
    rw [List.mem_append, not_or]
    exact ⟨not_mem_updDict u _ 60 (by decide) (by decide), by decide⟩
  have hD2 : NoOcc b!">>" (updDict u f.xref ++ [10]) := by
    apply noOcc_of_head
    rw [List.mem_append, not_or]
    exact ⟨not_mem_updDict u _ 62 (by decide) (by decide), by decide⟩
  have hD3 : (updDict u f.xref).getLast? ≠ some 62 := by rw [updDict_last]; decide
  have hwin : (b!"xref\n" ++ nl (updLines (Spec.places f.bytes.length u.objs)) ++ b!"trailer\n").length ≤ XRefTable.window := by
    have := hu.window
    rw [sectionText_nl] at this
    simp only [List.length_append] at this ⊢
    exact this
  have hsec : ∀ post,
      findPrevOffset ((Spec.append f u).bytes ++ post) (f.bytes ++ Spec.objectsText u.objs).length = some f.xref ∧
      parseXRefSection unz ((Spec.append f u).bytes ++ post) (f.bytes ++ Spec.objectsText u.objs).length =
        .ok (updSection f u) := by
    intro post
    have hr := section_read unz (f.bytes ++ Spec.objectsText u.objs) _ (updDict u f.xref)
      (b!"\nstartxref\n" ++ natDec (f.bytes ++ Spec.objectsText u.objs).length ++ b!"\n%%EOF\n" ++ post)
      hL hD1 hD2 hD3 hwin
    have hfile : (Spec.append f u).bytes ++ post = (f.bytes ++ Spec.objectsText u.objs) ++
        (b!"xref\n" ++ nl (updLines (Spec.places f.bytes.length u.objs)) ++ b!"trailer\n" ++
          (b!"<<" ++ updDict u f.xref ++ b!">>" ++
            (b!"\nstartxref\n" ++ natDec (f.bytes ++ Spec.objectsText u.objs).length ++ b!"\n%%EOF\n" ++ post))) := by
      rw [hb]; simp [List.append_assoc]
    simp only [] at hr
    rw [← hfile] at hr
    refine ⟨?_, ?_⟩
    · rw [hr.1, updDict_prev, Option.bind_some, atoiMag_natDec _ hprev]
    · rw [hr.2, updLines_fold]
      · rfl
      · intro e he
        obtain ⟨h1, h2, c, h3⟩ := places_le _ _ e he
        refine ⟨hu.numbers _ h3, ?_⟩
        rw [List.length_append] at hpre
        omega
  refine ⟨?_, ?_, ?_, by simp⟩
  · rw [hxref]
    have hX : (Spec.append f u).bytes = (f.bytes ++ (Spec.objectsText u.objs ++
        (b!"xref\n" ++ nl (updLines (Spec.places f.bytes.length u.objs)) ++ b!"trailer\n<<" ++ updDict u f.xref ++ b!">>"))) ++
        (10 :: (b!"startxref\n" ++ natDec (f.bytes ++ Spec.objectsText u.objs).length ++ b!"\n%%EOF\n")) := by
      rw [hb]; simp [List.append_assoc]
    rw [hX]
    apply findLast_eq _ _ (by omega)
    generalize hT : (b!"xref\n" ++ nl (updLines (Spec.places f.bytes.length u.objs)) ++ b!"trailer\n<<" ++
      updDict u f.xref ++ b!">>") = T
    have hTs : (115 : UInt8) ∉ T := by
      rw [← hT]
      simp only [List.mem_append, not_or]
      exact ⟨⟨⟨⟨by decide, nl_not_mem (by decide) (fun l hl => (updLines_ok _ l hl).2.2.2)⟩, by decide⟩,
        not_mem_updDict u _ 115 (by decide) (by decide)⟩, by decide⟩
    have hno := objectsText_noStart u.objs T hTs hu.contents
    -- the window reaches at most one byte into the previous revision
    obtain ⟨⟨n, c⟩, objs, ho⟩ : ∃ e objs, u.objs = e :: objs := by
      cases hx : u.objs with
      | nil => exact absurd hx hu.nonempty
      | cons e objs => exact ⟨e, objs, rfl⟩
    have hlenO : 16 ≤ (Spec.objectsText u.objs).length := by
      rw [ho]
      have := natDec_pos n
      simp [Spec.objectsText, Spec.objectText]
      omega
    have hlenT : 70 ≤ T.length := by
      rw [← hT, ho]
      have h1 := natDec_pos n
      have h2 := padDec_length_ge 10 f.bytes.length
      have h3 := natDec_pos u.size
      have h4 := natDec_pos u.root
      have h5 := natDec_pos f.xref
      have h6 : (nl (updLines (Spec.places f.bytes.length ((n, c) :: objs)))).length ≥ 24 := by
        simp only [Spec.places, updLines, List.flatMap_cons, nl_append, List.length_append]
        simp [nl]
        omega
      simp only [updDict, List.length_append]
      simp
      omega
    have hd := natDec_pos (f.bytes ++ Spec.objectsText u.objs).length
    have hk : f.bytes.length - 1 ≤ (f.bytes ++ (Spec.objectsText u.objs ++ T)).length + 12 +
        (natDec (f.bytes ++ Spec.objectsText u.objs).length).length - 100 := by
      rw [List.length_append (as := f.bytes) (bs := Spec.objectsText u.objs ++ T), List.length_append (as := Spec.objectsText u.objs)]
      omega
    have hbase : NoOcc b!"startxref" ((f.bytes ++ (Spec.objectsText u.objs ++ T)).drop (f.bytes.length - 1)) := by
      rw [List.drop_append_of_le_length (by omega)]
      obtain ⟨d, U, hU, hdig⟩ : ∃ d U, Spec.objectsText u.objs ++ T = d :: U ∧ isDigit d = true := by
        rw [ho]
        cases hn : natDec n with
        | nil => exact absurd hn (natDec_ne_nil n)
        | cons d r =>
          exact ⟨d, r ++ b!" 0 obj\n" ++ c ++ b!"\nendobj\n" ++ Spec.objectsText objs ++ T,
            by simp [Spec.objectsText, Spec.objectText, hn, List.append_assoc],
            natDec_digits n d (by rw [hn]; simp)⟩
      rw [hU] at hno ⊢
      apply noOcc_mid
      · intro hm
        simp only [List.mem_cons, List.not_mem_nil, or_false] at hm
        rcases hm with rfl | rfl | rfl | rfl | rfl | rfl | rfl | rfl | rfl <;> revert hdig <;> decide
      · intro j hj
        have := hj.length_le
        simp at this
        omega
      · exact noOcc_suffix (a := [d]) hno
    have hk' := noOcc_drop hbase ((f.bytes ++ (Spec.objectsText u.objs ++ T)).length + 12 +
      (natDec (f.bytes ++ Spec.objectsText u.objs).length).length - 100 - (f.bytes.length - 1))
    rw [List.drop_drop] at hk'
    rw [show f.bytes.length - 1 + ((f.bytes ++ (Spec.objectsText u.objs ++ T)).length + 12 +
      (natDec (f.bytes ++ Spec.objectsText u.objs).length).length - 100 - (f.bytes.length - 1)) =
      (f.bytes ++ (Spec.objectsText u.objs ++ T)).length + 12 +
      (natDec (f.bytes ++ Spec.objectsText u.objs).length).length - 100 by omega] at hk'
    exact hk'
  · rw [hxref]
    refine ⟨?_, hpre, fun post => (hsec post).1, ?_⟩
    · rw [List.length_append]; omega
    · rw [hb, List.append_assoc]; exact Chain.mono h.chain _
  · intro post
    rw [hxref, List.reverse_cons]
    apply parseSections_snoc
    · have := h.secs (Spec.objectsText u.objs ++ (b!"xref\n" ++ nl (updLines (Spec.places f.bytes.length u.objs)) ++
        b!"trailer\n" ++ (b!"<<" ++ updDict u f.xref ++ b!">>\nstartxref\n" ++
        natDec (f.bytes ++ Spec.objectsText u.objs).length ++ b!"\n%%EOF\n")) ++ post)
      rw [hb]
      simpa only [List.append_assoc] using this
    · exact (hsec post).2

end Pdfer.Incremental
