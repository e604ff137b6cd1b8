import Verif.Proofs.Rotate

/-! Kids arrays, page trees and page ranges. -/

namespace Pdfer.Manipulate

open Pdfer.Go Pdfer.Incremental Pdfer.Spec.Manipulate

/-! ### Arrays of references -/

/-- The references of a kids array with the white space around them. -/
def refsText (nums : List Nat) : Bytes := ((nums.map refText).intersperse b!" ").flatten

theorem refsText_cons (n m : Nat) (ns : List Nat) : refsText (n :: m :: ns) = refText n ++ (32 :: refsText (m :: ns)) := by
  simp [refsText]

theorem refsText_one (n : Nat) : refsText [n] = refText n := by simp [refsText]

theorem refText_chars (n : Nat) : ∀ c ∈ refText n, isDigit c = true ∨ c = 32 ∨ c = 82 := by
  intro c hc
  simp only [refText, List.mem_append] at hc
  rcases hc with hc | hc
  · exact Or.inl (natDec_digits n c hc)
  · simp at hc
    rcases hc with rfl | rfl | rfl | rfl <;> simp [isDigit]

theorem refsText_chars (nums : List Nat) : ∀ c ∈ refsText nums, isDigit c = true ∨ c = 32 ∨ c = 82 := by
  induction nums with
  | nil => simp [refsText]
  | cons n ns ih =>
    cases ns with
    | nil => rw [refsText_one]; exact refText_chars n
    | cons m ns =>
      rw [refsText_cons]
      intro c hc
      simp only [List.mem_append, List.mem_cons] at hc
      rcases hc with hc | hc | hc
      · exact refText_chars n c hc
      · exact Or.inr (Or.inl hc)
      · exact ih c hc

theorem digit_ne {c d : UInt8} (h : isDigit c = true) (hd : isDigit d = false) : c ≠ d := by
  intro e; subst e; rw [h] at hd; simp at hd

theorem reRef_refText (n : Nat) (rest : Bytes) : reRef (refText n ++ rest) = some (natDec n, rest) := by
  have e : refText n ++ rest = natDec n ++ (32 :: (natDec 0 ++ (32 :: (b!"R" ++ rest)))) := by
    simp [refText, show natDec 0 = [48] from rfl]
  unfold reRef
  rw [e, reNum_natDec (by intro c hc; simp at hc; subst hc; decide), Option.bind_some,
    reSp1_one (fun c hc => isDigit_not_reSpace (natDec_head 0 _ c hc)), Option.bind_some,
    reNum_natDec (by intro c hc; simp at hc; subst hc; decide), Option.bind_some,
    reSp1_one (by intro c hc; simp at hc; subst hc; decide), Option.bind_some, reLit_append]
  rfl

theorem reRef_nondigit {c : UInt8} {r : Bytes} (h : isDigit c = false) : reRef (c :: r) = none := by
  simp [reRef, reNum, h]

theorem findRefs_skip (a t : Bytes) : findRefs a.length (a ++ t) = findRefs 0 t := by
  induction a with
  | nil => rfl
  | cons c a ih => simpa [findRefs] using ih

theorem findRefs_nondigits {w t : Bytes} (hw : ∀ c ∈ w, isDigit c = false) : findRefs 0 (w ++ t) = findRefs 0 t := by
  induction w with
  | nil => rfl
  | cons c w ih =>
    simp only [List.cons_append, findRefs, reRef_nondigit (hw c (by simp))]
    exact ih (fun d hd => hw d (by simp [hd]))

theorem findRefs_refText (n : Nat) (rest : Bytes) : findRefs 0 (refText n ++ rest) = refText n :: findRefs 0 rest := by
  have h := reRef_refText n rest
  cases hx : refText n with
  | nil => simp [refText] at hx
  | cons c m =>
    rw [hx] at h
    rw [List.cons_append, findRefs, ← List.cons_append, h]
    have h1 : (c :: m ++ rest).length - rest.length = (c :: m).length := by simp only [List.length_append]; omega
    have h2 : (m ++ rest).length - rest.length = m.length := by simp only [List.length_append]; omega
    simp only [h1, h2]
    rw [List.take_left', findRefs_skip]
    rfl

theorem findRefs_refs (nums : List Nat) (t : Bytes) :
    findRefs 0 (refsText nums ++ t) = nums.map refText ++ findRefs 0 t := by
  induction nums with
  | nil => simp [refsText]
  | cons n ns ih =>
    cases ns with
    | nil => rw [refsText_one, findRefs_refText]; rfl
    | cons m ns =>
      have h32 : findRefs 0 (32 :: (refsText (m :: ns) ++ t)) = findRefs 0 (refsText (m :: ns) ++ t) :=
        findRefs_nondigits (w := [32]) (by simp; decide)
      rw [refsText_cons, List.append_assoc, findRefs_refText, List.cons_append, h32, ih]
      rfl

theorem white_not_digit {c : UInt8} (h : White c) : isDigit c = false := by
  rcases h with h | h | h | h | h <;> subst h <;> decide

theorem white_isSpace {c : UInt8} (h : White c) : isSpace c = true := by
  rcases h with h | h | h | h | h <;> subst h <;> decide

theorem findRefs_body (w1 : Bytes) (nums : List Nat) (w2 : Bytes) (h1 : ∀ c ∈ w1, White c) (h2 : ∀ c ∈ w2, White c) :
    findRefs 0 (w1 ++ (refsText nums ++ w2)) = nums.map refText := by
  rw [findRefs_nondigits (fun c hc => white_not_digit (h1 c hc)), findRefs_refs]
  · have := findRefs_nondigits (w := w2) (t := []) (fun c hc => white_not_digit (h2 c hc))
    rw [List.append_nil] at this
    rw [this]
    simp [findRefs]

theorem trimSpace_brackets (b : Bytes) : trimSpace (91 :: (b ++ [93])) = 91 :: (b ++ [93]) := by
  unfold trimSpace
  have h1 : (91 :: (b ++ [93]) : Bytes).dropWhile isSpace = 91 :: (b ++ [93]) := by
    rw [List.dropWhile_cons]
    rw [if_neg (by decide)]
  rw [h1]
  have h2 : (91 :: (b ++ [93]) : Bytes).reverse = 93 :: (b.reverse ++ [91]) := by simp
  rw [h2, List.dropWhile_cons, if_neg (by decide), ← h2, List.reverse_reverse]

theorem parseArray (b : Bytes) : parseObjectRefArray (91 :: (b ++ [93])) = findRefs 0 b := by
  unfold parseObjectRefArray
  rw [trimSpace_brackets]
  have h1 : (b!"[").isPrefixOf (91 :: (b ++ [93])) = true := by simp [List.isPrefixOf]
  have h2 : (b!"]").isSuffixOf (b ++ [93]) = true := by simp
  simp only [h1, if_true, List.drop_succ_cons, List.drop_zero, h2]
  simp

theorem kidsArray_eq (w1 : Bytes) (nums : List Nat) (w2 : Bytes) :
    kidsArray w1 nums w2 = 91 :: ((w1 ++ (refsText nums ++ w2)) ++ [93]) := by
  simp [kidsArray, refsText]

theorem parse_kids (w1 : Bytes) (nums : List Nat) (w2 : Bytes) (h1 : ∀ c ∈ w1, White c) (h2 : ∀ c ∈ w2, White c) :
    parseObjectRefArray (kidsArray w1 nums w2) = nums.map refText := by
  rw [kidsArray_eq, parseArray, findRefs_body w1 nums w2 h1 h2]

theorem parseObjectRef_refText (n : Nat) (h : n ≤ 9223372036854775807) : parseObjectRef (refText n) = some (n : Int) := by
  unfold parseObjectRef refText
  rw [show natDec n ++ b!" 0 R" = natDec n ++ (32 :: b!"0 R") from rfl,
    fields_word_space (natDec n) (fun c hc => isDigit_not_space (natDec_digits n c hc)) (natDec_ne_nil n) 32 (by decide)]
  simp only
  exact atoi_natDec n h

/-! ### The value of an array key -/

theorem closeBracket_flat (b rest : Bytes) (h : ∀ c ∈ b, c ≠ 91 ∧ c ≠ 93) :
    closeBracket 1 (b ++ (93 :: rest)) = some (b.length + 1) := by
  induction b with
  | nil => simp [closeBracket]
  | cons c b ih =>
    have hc := h c (by simp)
    rw [List.cons_append, closeBracket, if_neg hc.1, if_neg hc.2, ih (fun d hd => h d (by simp [hd]))]
    rfl

theorem body_chars (w1 : Bytes) (nums : List Nat) (w2 : Bytes) (h1 : ∀ c ∈ w1, White c) (h2 : ∀ c ∈ w2, White c) :
    ∀ c ∈ w1 ++ (refsText nums ++ w2), c ≠ 91 ∧ c ≠ 93 := by
  intro c hc
  simp only [List.mem_append] at hc
  rcases hc with hc | hc | hc
  · have := h1 c hc
    constructor <;> (intro e; subst e; simp [White] at this)
  · rcases refsText_chars nums c hc with h | h | h
    · exact ⟨digit_ne h (by decide), digit_ne h (by decide)⟩
    · subst h; decide
    · subst h; decide
  · have := h2 c hc
    constructor <;> (intro e; subst e; simp [White] at this)

theorem arraySpan_some {c : UInt8} {k pre w b rest : Bytes} (hc : c ∉ k) (hpre : NoOcc (c :: k) pre)
    (hw : ∀ x ∈ w, objWs x = true) (hb : ∀ x ∈ b, x ≠ 91 ∧ x ≠ 93) :
    arraySpan (pre ++ ((c :: k) ++ (w ++ (91 :: (b ++ (93 :: rest)))))) (c :: k) =
      some (pre.length, pre.length + (c :: k).length + w.length,
        pre.length + (c :: k).length + w.length + (b.length + 2)) := by
  unfold arraySpan
  rw [index_first hc hpre, Option.bind_some]
  simp only
  generalize hs : w ++ (91 :: (b ++ (93 :: rest))) = t
  have hd : (pre ++ ((c :: k) ++ t)).drop (pre.length + (c :: k).length) = t := by
    rw [← List.append_assoc]
    exact List.drop_left' (by simp)
  rw [hd]
  have htw : t.takeWhile objWs = w := by
    rw [← hs]
    exact takeWhile_all hw (by intro d hd; simp at hd; subst hd; decide)
  rw [htw, ← List.drop_drop, hd, ← hs, List.drop_left]
  simp only [closeBracket, if_true]
  rw [closeBracket_flat b rest hb]
  rfl

theorem extract_array {c : UInt8} {k pre w b rest : Bytes} (hc : c ∉ k) (hpre : NoOcc (c :: k) pre)
    (hw : ∀ x ∈ w, objWs x = true) (hb : ∀ x ∈ b, x ≠ 91 ∧ x ≠ 93) :
    extractDictValue (pre ++ ((c :: k) ++ (w ++ (91 :: (b ++ (93 :: rest)))))) (c :: k) = 91 :: (b ++ [93]) := by
  unfold extractDictValue
  rw [index_first hc hpre]
  simp only
  rw [arraySpan_some hc hpre hw hb]
  simp only
  have e : pre ++ ((c :: k) ++ (w ++ (91 :: (b ++ (93 :: rest))))) =
      (pre ++ (c :: k) ++ w) ++ ((91 :: (b ++ [93])) ++ rest) := by simp
  have hl : pre.length + (c :: k).length + w.length = (pre ++ (c :: k) ++ w).length := by
    simp only [List.length_append]
  rw [e, hl, List.take_append]
  have h3 : (pre ++ (c :: k) ++ w).length + (b.length + 2) - (pre ++ (c :: k) ++ w).length = (91 :: (b ++ [93])).length := by
    simp only [List.length_append, List.length_cons, List.length_nil]; omega
  rw [h3, List.take_left, List.take_of_length_le (by omega), List.drop_left]

theorem objWs_of_white {c : UInt8} (h : White c ∧ c ≠ 12) : objWs c = true := by
  obtain ⟨h, h2⟩ := h
  rcases h with h | h | h | h | h <;> subst h <;> first | decide | exact absurd rfl h2

theorem node_kids {s : Bytes} {nums : List Nat} (h : NodeText s nums) :
    parseObjectRefArray (extractDictValue s b!"/Kids") = nums.map refText ∧ extractDictValue s b!"/Kids" ≠ [] := by
  obtain ⟨-, w, w1, w2, rest, hw, hw1, hw2, pre, hpre, rfl⟩ := h
  have e : pre ++ b!"/Kids" ++ (w ++ kidsArray w1 nums w2 ++ rest) =
      pre ++ ((47 :: b!"Kids") ++ (w ++ (91 :: ((w1 ++ (refsText nums ++ w2)) ++ (93 :: rest))))) := by
    rw [kidsArray_eq]; simp
  have := extract_array (c := 47) (k := b!"Kids") (rest := rest) (by decide) (noOcc_iff_infix.2 hpre)
    (fun x hx => objWs_of_white (hw x hx)) (body_chars w1 nums w2 hw1 hw2)
  rw [e, this]
  refine ⟨?_, by simp⟩
  rw [parseArray, findRefs_body w1 nums w2 hw1 hw2]

theorem type_of {s w rest tok : Bytes} (hw0 : w ≠ []) (hw : ∀ c ∈ w, White c) (hr : Ends rest) (ht : Token tok)
    (h : FirstKey s b!"/Type" (w ++ tok ++ rest)) : extractDictValue s b!"/Type" = tok := by
  obtain ⟨pre, hpre, rfl⟩ := h
  have e : pre ++ b!"/Type" ++ (w ++ tok ++ rest) = pre ++ ((47 :: b!"Type") ++ (w ++ (tok ++ rest))) := by simp
  rw [e]
  exact extract_value (c := 47) (k := b!"Type") (by decide) (noOcc_iff_infix.2 hpre) hw0 hw ht hr

theorem reTok_some_white {key s : Bytes} (h : reTok key s ≠ none) : ∃ c b, s = key ++ c :: b ∧ reSpace c = true := by
  obtain ⟨t, rfl⟩ := reTok_prefix h
  cases t with
  | nil => simp [reTok, reLit, reSp1] at h
  | cons c b =>
    refine ⟨c, b, rfl, ?_⟩
    apply Classical.byContradiction
    intro hc
    apply h
    unfold reTok
    rw [reLit_append, Option.bind_some]
    simp [reSp1, hc]

theorem searchWith_all_none {α : Type} {p : Bytes → Option α} {s : Bytes} (h : ∀ j, p (s.drop j) = none) :
    searchWith p s = none := by
  induction s with
  | nil => simpa [searchWith] using h 0
  | cons c s ih =>
    have h0 := h 0
    simp only [List.drop_zero] at h0
    rw [searchWith, h0]
    exact ih (fun j => by simpa using h (j + 1))

theorem searchTok_noSpaced {key s : Bytes} (h : NoSpaced s key) : searchWith (reTok key) s = none := by
  apply searchWith_all_none
  intro j
  apply Classical.byContradiction
  intro hne
  obtain ⟨c, b, e, hc⟩ := reTok_some_white hne
  refine h (s.take j) c b ?_ (white_reSpace.2 hc)
  rw [List.append_assoc, ← e, List.take_append_drop]

theorem reName_value {key name rest : Bytes} (hn0 : name ≠ []) (hn : ∀ c ∈ name, nameByte c = true)
    (hr : ∀ c, rest.head? = some c → nameByte c = false) : reName key (key ++ (47 :: (name ++ rest))) = some (name, rest) := by
  unfold reName
  rw [reLit_append, Option.bind_some, show (47 :: (name ++ rest) : Bytes) = b!"/" ++ (name ++ rest) from rfl, reLit_append,
    Option.bind_some, takeWhile_all hn hr, dropWhile_all hn hr, if_neg hn0]

theorem endsName {rest : Bytes} (h : ∀ c, rest.head? = some c → White c ∨ c = 60 ∨ c = 62 ∨ c = 47) :
    ∀ c, rest.head? = some c → nameByte c = false := by
  intro c hc
  rcases h c hc with hw | hw | hw | hw
  · simp [nameByte, tokByte, white_reSpace.1 hw]
  · subst hw; decide
  · subst hw; decide
  · subst hw; decide

theorem type_is {s name : Bytes} (hn0 : name ≠ []) (hn : ∀ c ∈ name, nameByte c = true) (h : TypeIs s (47 :: name)) :
    extractDictValue s b!"/Type" = 47 :: name := by
  rcases h with ⟨w, rest, hw0, hw, hr, hf⟩ | ⟨rest, hr, ⟨pre, hpre, rfl⟩, hns⟩
  · refine type_of hw0 hw hr ⟨by simp, ?_, by simp⟩ hf
    intro c hc
    rcases List.mem_cons.1 hc with rfl | hc
    · decide
    · have := hn c hc
      simp [nameByte] at this
      exact this.1
  · have e : pre ++ b!"/Type" ++ (47 :: name ++ rest) = pre ++ ((47 :: b!"Type") ++ ([] ++ ((47 :: name) ++ rest))) := by
      simp
    have hp := noOcc_iff_infix.2 hpre
    unfold extractDictValue
    have hts := searchTok_noSpaced hns
    rw [e] at hts ⊢
    rw [index_first (c := 47) (k := b!"Type") (by decide) hp]
    simp only
    rw [arraySpan_none (c := 47) (k := b!"Type") (by decide) hp (by simp) (by simp) (by simp)
      (by intro d hd; simp at hd; subst hd; decide)]
    simp only [simpleValue]
    rw [hts]
    simp only
    have hx : searchWith (reName b!"/Type") (b!"/Type" ++ ([] ++ ((47 :: name) ++ rest))) = some (name, rest) :=
      searchWith_here (reName_value hn0 hn (endsName hr))
    rw [searchWith_first (p := reName b!"/Type") (c := 47) (k := b!"Type") (fun s => reName_prefix) _ hp, hx]
    · rfl
    · intro d hd; simp at hd; subst hd; decide

theorem page_type {s : Bytes} (h : PageText s) : extractDictValue s b!"/Type" = b!"/Page" :=
  type_is (name := b!"Page") (by simp) (by decide) h

theorem node_type {s : Bytes} {nums : List Nat} (h : NodeText s nums) : extractDictValue s b!"/Type" = b!"/Pages" :=
  type_is (name := b!"Pages") (by simp) (by decide) h.1

/-! ### Enumeration -/

theorem kidsLoop_refs (go : Int → Option (Option (List Int))) (ns : List Nat) (res : Nat → List Int)
    (hmax : ∀ n ∈ ns, n ≤ 9223372036854775807) (h : ∀ n ∈ ns, go n = some (some (res n))) :
    kidsLoop go (ns.map refText) = some (ns.flatMap res) := by
  induction ns with
  | nil => rfl
  | cons n ns ih =>
    simp only [List.map_cons, kidsLoop]
    rw [parseObjectRef_refText n (hmax n (by simp))]
    simp only
    rw [h n (by simp), Option.bind_some, ih (fun m hm => hmax m (by simp [hm])) (fun m hm => h m (by simp [hm]))]
    rfl

theorem kidsLoop_diverges (go : Int → Option (Option (List Int))) (ns : List Nat) (k : Nat) (hk : k ∈ ns)
    (hmax : k ≤ 9223372036854775807) (h : go k = none) : kidsLoop go (ns.map refText) = none := by
  induction ns with
  | nil => simp at hk
  | cons n ns ih =>
    simp only [List.map_cons, kidsLoop]
    rcases List.mem_cons.1 hk with e | hk'
    · subst e
      rw [parseObjectRef_refText k hmax]
      simp [h]
    · split
      · exact ih hk'
      · rw [ih hk']
        cases go _ <;> rfl

theorem holds_le {get : Int → Option Bytes} {t : PTree} (h : Holds get t) : t.num ≤ 9223372036854775807 := by
  cases h <;> assumption

theorem pages_node (n : Nat) (kids : List PTree) : (PTree.node n kids).pages = kids.flatMap PTree.pages := by
  rw [PTree.pages]
  simp [List.flatMap]

/-- Uniform fuel for a list. -/
theorem uniform {α : Type} (l : List α) (P : α → Nat → Prop) (h : ∀ x ∈ l, ∃ F, ∀ f, F ≤ f → P x f) :
    ∃ F, ∀ f, F ≤ f → ∀ x ∈ l, P x f := by
  induction l with
  | nil => exact ⟨0, by simp⟩
  | cons x l ih =>
    obtain ⟨F1, h1⟩ := h x (by simp)
    obtain ⟨F2, h2⟩ := ih (fun y hy => h y (by simp [hy]))
    refine ⟨max F1 F2, fun f hf y hy => ?_⟩
    rcases List.mem_cons.1 hy with rfl | hy
    · exact h1 f (by omega)
    · exact h2 f (by omega) y hy

/-- The loop over the kids of a tree node. -/
theorem kids_tree (go : Int → Option (Option (List Int))) (kids : List PTree)
    (hmax : ∀ k ∈ kids, k.num ≤ 9223372036854775807)
    (h : ∀ k ∈ kids, go k.num = some (some (k.pages.map Int.ofNat))) :
    kidsLoop go ((kids.map PTree.num).map refText) = some ((kids.flatMap PTree.pages).map Int.ofNat) := by
  induction kids with
  | nil => rfl
  | cons k kids ih =>
    simp only [List.map_cons, kidsLoop]
    rw [parseObjectRef_refText k.num (hmax k (by simp))]
    simp only
    rw [h k (by simp), Option.bind_some, ih (fun m hm => hmax m (by simp [hm])) (fun m hm => h m (by simp [hm]))]
    simp

theorem pageNums_tree {get : Int → Option Bytes} {t : PTree} (h : Holds get t) :
    ∃ F, ∀ fuel, F ≤ fuel → pageNums get fuel t.num = some (some (t.pages.map Int.ofNat)) := by
  induction h with
  | page n s hn hg hs =>
    refine ⟨1, fun fuel hf => ?_⟩
    obtain ⟨f, rfl⟩ : ∃ f, fuel = f + 1 := ⟨fuel - 1, by omega⟩
    simp only [PTree.num, pageNums, hg]
    rw [if_pos (page_type hs)]
    simp [PTree.pages]
  | node n kids s hn hg hs hk ih =>
    obtain ⟨F, hF⟩ := uniform kids _ ih
    refine ⟨F + 1, fun fuel hf => ?_⟩
    obtain ⟨f, rfl⟩ : ∃ f, fuel = f + 1 := ⟨fuel - 1, by omega⟩
    simp only [PTree.num, pageNums, hg]
    rw [if_neg (by rw [node_type hs]; decide), if_neg (node_kids hs).2, (node_kids hs).1,
      kids_tree _ kids (fun k hk' => holds_le (hk k hk')) (hF f (by omega)), pages_node]
    rfl

theorem pageNums_diverges {get : Int → Option Bytes} {S : Nat → Prop}
    (h : ∀ n, S n → ∃ s kids, get n = some s ∧ NodeText s kids ∧ ∃ k ∈ kids, S k ∧ k ≤ 9223372036854775807)
    (fuel : Nat) : ∀ n, S n → pageNums get fuel n = none := by
  induction fuel with
  | zero => intro n _; rfl
  | succ f ih =>
    intro n hn
    obtain ⟨s, kids, hg, hs, k, hk, hSk, hmax⟩ := h n hn
    simp only [pageNums, hg]
    rw [if_neg (by rw [node_type hs]; decide), if_neg (node_kids hs).2, (node_kids hs).1,
      kidsLoop_diverges _ kids k hk hmax (ih k hSk)]
    rfl

/-! ### Page ranges -/

theorem pageRanges_cover (total per : Nat) (hper : 1 ≤ per) (fuel start : Nat) (hs : 1 ≤ start)
    (hf : total + 1 ≤ fuel + start) :
    ((pageRanges total per fuel start).map rangePages).flatten = (List.range (total + 1 - start)).map (· + start) := by
  induction fuel generalizing start with
  | zero =>
    rw [show total + 1 - start = 0 by omega]
    rfl
  | succ fuel ih =>
    rw [pageRanges]
    split
    · rename_i h
      simp only [List.map_cons, List.flatten_cons]
      rw [ih (start + per) (by omega) (by omega)]
      unfold rangePages
      simp only
      split
      · rename_i hgt
        rw [show total + 1 - (start + per) = 0 by omega]
        simp
      · rename_i hgt
        rw [show start + per - 1 + 1 - start = per by omega]
        have : total + 1 - start = per + (total + 1 - (start + per)) := by omega
        rw [this, List.range_add, List.map_append, List.map_map]
        congr 1
        apply List.map_congr_left
        intro x _
        simp; omega
    · rename_i h
      rw [show total + 1 - start = 0 by omega]
      rfl

theorem pageRanges_sizes (total per : Nat) (hper : 1 ≤ per) (fuel start : Nat) :
    (∀ r ∈ pageRanges total per fuel start, start ≤ r.1 ∧ r.1 ≤ r.2 ∧ r.2 ≤ total ∧ r.2 + 1 - r.1 ≤ per) ∧
    (∀ r ∈ (pageRanges total per fuel start).dropLast, r.2 + 1 - r.1 = per) := by
  induction fuel generalizing start with
  | zero => simp [pageRanges]
  | succ fuel ih =>
    rw [pageRanges]
    split
    · rename_i h
      obtain ⟨h1, h2⟩ := ih (start + per)
      constructor
      · intro r hr
        rcases List.mem_cons.1 hr with rfl | hr
        · simp only
          split <;> omega
        · have := h1 r hr
          omega
      · intro r hr
        cases hx : pageRanges total per fuel (start + per) with
        | nil => rw [hx] at hr; simp at hr
        | cons q qs =>
          rw [hx, List.dropLast_cons_cons] at hr
          rcases List.mem_cons.1 hr with rfl | hr
          · simp only
            have hq := h1 q (by rw [hx]; simp)
            rw [if_neg (by omega)]
            omega
          · exact h2 r (by rw [hx]; exact hr)
    · simp

end Pdfer.Manipulate
