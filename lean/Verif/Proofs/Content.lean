import Verif.Spec.Content
import Verif.Proofs.Encoding

/-! Reading back what the content builder writes. -/

namespace Pdfer.Content

open Pdfer.Go Pdfer.Enc Pdfer.Spec Pdfer.Spec.Content Pdfer.Strings

variable {F : Type}

/-! ### Numbers -/

/-- Texts of numbers. -/
def NumText (s : Bytes) : Prop := s ≠ [] ∧ ∀ c ∈ s, isNumC c = true

/-- Each text followed by a space. -/
def spacedNums (ns : List Bytes) : Bytes := ns.flatMap fun n => n ++ b!" "

theorem numList_eq (fmt : F → Bytes) (xs : List F) : numList fmt xs = spacedNums (xs.map fmt) := by
  simp [numList, spacedNums, List.flatMap_map]

/-- Begins like an operator: neither a number nor white space. -/
def OpText (s : Bytes) : Prop := ∃ c r, s = c :: r ∧ isNumC c = false ∧ reSpace c = false

theorem num_not_space : ∀ c : UInt8, isNumC c = true → reSpace c = false := by apply forall_byte; decide +kernel

theorem takeWhile_num {n : Bytes} (hn : NumText n) (r : Bytes) : (n ++ 32 :: r).takeWhile isNumC = n ∧ (n ++ 32 :: r).dropWhile isNumC = 32 :: r := by
  have h : ∀ x ∈ n, isNumC x = true := hn.2
  constructor
  · rw [List.takeWhile_append_of_pos h, List.takeWhile_cons_of_neg (by decide)]; simp
  · rw [List.dropWhile_append_of_pos h, List.dropWhile_cons_of_neg (by decide)]

theorem sp1_cons {c : UInt8} (h : reSpace c = false) (r : Bytes) : reSp1 (32 :: c :: r) = some (c :: r) := by
  simp [reSp1, List.dropWhile_cons, h, show reSpace 32 = true by decide]

theorem head_nums {ns : List Bytes} (h : ∀ n ∈ ns, NumText n) {op : Bytes} (ho : OpText op) :
    ∃ c r, spacedNums ns ++ op = c :: r ∧ reSpace c = false ∧ (ns ≠ [] → isNumC c = true) ∧ (ns = [] → isNumC c = false) := by
  cases ns with
  | nil =>
    obtain ⟨c, r, rfl, h1, h2⟩ := ho
    exact ⟨c, r, rfl, h2, by simp, fun _ => h1⟩
  | cons n ns =>
    obtain ⟨h1, h2⟩ := h n (by simp)
    obtain ⟨c, r, rfl⟩ := List.exists_cons_of_ne_nil h1
    have hc := h2 c (by simp)
    exact ⟨c, _, rfl, num_not_space c hc, fun _ => hc, by simp⟩

theorem reNums_spaced {ns : List Bytes} (h : ∀ n ∈ ns, NumText n) {op : Bytes} (ho : OpText op) (k : Nat) :
    reNums k (spacedNums ns ++ op) = if k ≤ ns.length then some (ns.take k, spacedNums (ns.drop k) ++ op) else none := by
  induction k generalizing ns with
  | zero => simp [reNums]
  | succ k ih =>
    cases ns with
    | nil =>
      obtain ⟨c, r, rfl, h1, h2⟩ := ho
      rw [reNums, if_pos (by simp [spacedNums, List.takeWhile_cons, h1])]
      simp
    | cons n ns =>
      have hn := h n (by simp)
      have hns := fun m hm => h m (List.mem_cons_of_mem _ hm)
      have e : spacedNums (n :: ns) ++ op = n ++ 32 :: (spacedNums ns ++ op) := by simp [spacedNums]
      rw [e, reNums, (takeWhile_num hn _).1, (takeWhile_num hn _).2, if_neg hn.1]
      obtain ⟨c, r, e2, h1, -⟩ := head_nums hns ho
      rw [e2, sp1_cons h1, Option.bind_some, ← e2, ih hns]
      by_cases hk : k ≤ ns.length
      · rw [if_pos hk, if_pos (by simpa using hk)]; rfl
      · rw [if_neg hk, if_neg (by simpa using hk)]; rfl

theorem reLit_head {c d : UInt8} (h : c ≠ d) (a b : Bytes) : reLit (c :: a) (d :: b) = none := by
  simp [reLit, List.isPrefixOf, h]

theorem reOp_spaced {ns : List Bytes} (h : ∀ n ∈ ns, NumText n) {op op' : Bytes} (ho : OpText op) (ho' : OpText op') (k : Nat) :
    reOp k op' (spacedNums ns ++ op) = if k = ns.length then (reLit op' op).map fun _ => ns else none := by
  unfold reOp
  rw [reNums_spaced h ho]
  by_cases hk : k = ns.length
  · subst hk
    simp [spacedNums]
  · rw [if_neg hk]
    by_cases hle : k ≤ ns.length
    · rw [if_pos hle, Option.bind_some]
      have hne : ns.drop k ≠ [] := by
        intro h0
        have := congrArg List.length h0
        simp at this
        omega
      obtain ⟨c, r, e, h1, h2, -⟩ := head_nums (fun n hn => h n (List.mem_of_mem_drop hn)) (ns := ns.drop k) ho
      obtain ⟨c', r', rfl, h3, -⟩ := ho'
      rw [e, reLit_head (by rintro rfl; rw [h2 hne] at h3; exact absurd h3 (by decide))]
      rfl
    · rw [if_neg hle]; rfl

/-- A number followed by a space cannot be a name and something else. -/
theorem drop_name {n : Bytes} (hn : NumText n) (r : Bytes) {c : UInt8} {r' : Bytes} (hr : r = c :: r') (hc : reSpace c = false) :
    reSp1 ((n ++ 32 :: r).dropWhile isNameC) = none ∨ reSp1 ((n ++ 32 :: r).dropWhile isNameC) = some r := by
  obtain ⟨h1, h2⟩ := hn
  clear h1
  induction n with
  | nil =>
    right
    rw [List.nil_append, List.dropWhile_cons_of_neg (by decide), hr, sp1_cons hc]
  | cons a n ih =>
    rw [List.cons_append]
    by_cases ha : isNameC a = true
    · rw [List.dropWhile_cons_of_pos ha]
      exact ih (fun c hc => h2 c (by simp [hc]))
    · left
      rw [List.dropWhile_cons_of_neg ha]
      have := num_not_space a (h2 a (by simp))
      simp [reSp1, this]

theorem reFont_nums {ns : List Bytes} (h : ∀ n ∈ ns, NumText n) (h0 : ns ≠ []) {op : Bytes} (ho : OpText op) (hop : reLit b!"Tf" op = none) :
    reFont (spacedNums ns ++ op) = none := by
  obtain ⟨n, ns, rfl⟩ := List.exists_cons_of_ne_nil h0
  have hns := fun m hm => h m (List.mem_cons_of_mem _ hm)
  have e : spacedNums (n :: ns) ++ op = n ++ 32 :: (spacedNums ns ++ op) := by simp [spacedNums]
  unfold reFont
  split
  · rfl
  · obtain ⟨c, r, e2, h1, -⟩ := head_nums hns ho
    rw [e]
    rcases drop_name (h n (by simp)) _ e2 h1 with h3 | h3
    · rw [h3]; rfl
    · rw [h3, Option.bind_some]
      rw [reNums_spaced hns ho]
      by_cases hk : 1 ≤ ns.length
      · rw [if_pos hk, Option.bind_some]
        have : reLit b!"Tf" (spacedNums (ns.drop 1) ++ op) = none := by
          by_cases hd : ns.drop 1 = []
          · rw [hd]; exact hop
          · obtain ⟨c, r, e, h1, h2, -⟩ := head_nums (fun n hn => hns n (List.mem_of_mem_drop hn)) (ns := ns.drop 1) ho
            rw [e]
            exact reLit_head (by rintro rfl; exact absurd (h2 hd) (by decide)) _ _
        rw [this]; rfl
      · rw [if_neg hk]; rfl

theorem reDo_nums {ns : List Bytes} (h : ∀ n ∈ ns, NumText n) (h0 : ns ≠ []) {op : Bytes} (ho : OpText op) (hop : reLit b!"Do" op = none) :
    reDo (spacedNums ns ++ op) = none := by
  obtain ⟨n, ns, rfl⟩ := List.exists_cons_of_ne_nil h0
  have hns := fun m hm => h m (List.mem_cons_of_mem _ hm)
  have e : spacedNums (n :: ns) ++ op = n ++ 32 :: (spacedNums ns ++ op) := by simp [spacedNums]
  unfold reDo
  split
  · rfl
  · obtain ⟨c, r, e2, h1, -⟩ := head_nums hns ho
    rw [e]
    rcases drop_name (h n (by simp)) _ e2 h1 with h3 | h3
    · rw [h3]; rfl
    · rw [h3, Option.bind_some]
      have : reLit b!"Do" (spacedNums ns ++ op) = none := by
        by_cases hd : ns = []
        · rw [hd]; exact hop
        · obtain ⟨c, r, e, h1, h2, -⟩ := head_nums hns ho
          rw [e]
          exact reLit_head (by rintro rfl; exact absurd (h2 hd) (by decide)) _ _
      rw [this]; rfl

/-! ### Lines that begin with a certain character -/

theorem reOp_head {c : UInt8} (hc : isNumC c = false) (k : Nat) (op r : Bytes) : reOp (k + 1) op (c :: r) = none := by
  unfold reOp
  rw [reNums, if_pos (by simp [List.takeWhile_cons, hc])]
  rfl

theorem reFont_head {c : UInt8} (hc : isNameC c = false) (r : Bytes) : reFont (c :: r) = none := by
  unfold reFont
  rw [if_pos (by simp [List.takeWhile_cons, hc])]

theorem reDo_head {c : UInt8} (hc : isNameC c = false) (r : Bytes) : reDo (c :: r) = none := by
  unfold reDo
  rw [if_pos (by simp [List.takeWhile_cons, hc])]

theorem reShow_head {c : UInt8} (hc : c ≠ 40) (op r : Bytes) : reShow op (c :: r) = none := by
  unfold reShow Forms.reParen
  rw [reLit_head (Ne.symm hc)]; rfl

theorem reShowHex_head {c : UInt8} (hc : c ≠ 60) (op r : Bytes) : reShowHex op (c :: r) = none := by
  unfold reShowHex
  rw [reLit_head (Ne.symm hc)]; rfl

theorem reShowArr_head {c : UInt8} (hc : c ≠ 91) (r : Bytes) : reShowArr (c :: r) = none := by
  unfold reShowArr
  rw [reLit_head (Ne.symm hc)]; rfl

theorem prefix_head {c d : UInt8} (h : c ≠ d) (a b : Bytes) : (c :: a).isPrefixOf (d :: b) = false := by
  simp [List.isPrefixOf, h]

theorem showOps_none (fl : Floats F) (st : State F) {c : UInt8} (r : Bytes) (h1 : c ≠ 40) (h2 : c ≠ 60) (h3 : c ≠ 91) :
    showOps fl st (c :: r) = none := by
  unfold showOps
  rw [reShow_head h1, reShowHex_head h2, reShow_head h1, reShowHex_head h2, reShowArr_head h3]
  rfl

theorem textOps_none (fl : Floats F) (fonts : Option (Map Bytes Decoder)) (st : State F) (line : Bytes)
    (h1 : (b!"BT").isPrefixOf line = false) (h2 : (b!"ET").isPrefixOf line = false) (h3 : reOp 2 b!"Td" line = none)
    (h4 : reOp 6 b!"Tm" line = none) (h5 : reFont line = none) (h6 : reOp 1 b!"Tc" line = none) (h7 : reOp 1 b!"Tw" line = none)
    (h8 : reOp 1 b!"Ts" line = none) : textOps fl fonts st line = none := by
  unfold textOps
  rw [h1, h2, h3, h4, h5, h6, h7, h8]
  rfl

theorem graphicsOps_none (fl : Floats F) (st : State F) (line : Bytes) (h1 : reOp 4 b!"re" line = none) (h2 : reOp 2 b!"m" line = none)
    (h3 : reOp 2 b!"l" line = none) (h4 : reOp 6 b!"cm" line = none) (h5 : reOp 1 b!"w" line = none) (h6 : reOp 3 b!"rg" line = none)
    (h7 : reOp 3 b!"RG" line = none) (h8 : reDo line = none) (h9 : (b!"S").isPrefixOf line = false) (h10 : (b!"f").isPrefixOf line = false)
    (h11 : line ≠ b!"q") (h12 : line ≠ b!"Q") : graphicsOps fl st line = none := by
  unfold graphicsOps
  rw [h1, h2, h3, h4, h5, h6, h7, h8, h9, h10, if_neg (by decide), if_neg (by decide), if_neg h11, if_neg h12]
  rfl

/-! ### Whole lines -/

theorem trim_id {s : Bytes} {c d : UInt8} (h1 : s.head? = some c) (hc : isSpace c = false) (h2 : s.getLast? = some d)
    (hd : isSpace d = false) : trimSpace s = s := by
  unfold trimSpace
  have e1 : s.dropWhile isSpace = s := by
    cases s with
    | nil => rfl
    | cons a s =>
      simp only [List.head?_cons, Option.some.injEq] at h1
      subst h1
      rw [List.dropWhile_cons_of_neg (by simp [hc])]
  rw [e1]
  have h3 : s.reverse.head? = some d := by rw [List.head?_reverse, h2]
  have e2 : s.reverse.dropWhile isSpace = s.reverse := by
    cases hr : s.reverse with
    | nil => rfl
    | cons a r =>
      rw [hr] at h3
      simp only [List.head?_cons, Option.some.injEq] at h3
      subst h3
      rw [List.dropWhile_cons_of_neg (by simp [hd])]
  rw [e2, List.reverse_reverse]

/-- A line without white space at its ends. -/
def Tight (s : Bytes) : Prop := ∃ c d, s.head? = some c ∧ isSpace c = false ∧ s.getLast? = some d ∧ isSpace d = false

theorem lineStep_tight (fl : Floats F) (fonts : Option (Map Bytes Decoder)) (st : State F) {s : Bytes} (h : Tight s) :
    lineStep fl fonts st s = match textOps fl fonts st s with
      | some s => s
      | none => match showOps fl st s with
        | some s => s
        | none => (graphicsOps fl st s).getD st := by
  obtain ⟨c, d, h1, h2, h3, h4⟩ := h
  have h0 : s ≠ [] := by rintro rfl; simp at h1
  unfold lineStep
  simp only [trim_id h1 h2 h3 h4, h0, if_false]
  rfl

/-- The effect of a call on the reader. -/
def sem (fl : Floats F) (val : F → F) (fonts : Option (Map Bytes Decoder)) (st : State F) : Call F → State F
  | .saveState => { st with stack := st.ctm :: st.stack }
  | .restoreState => match st.stack with
    | m :: ms => { st with ctm := m, stack := ms }
    | [] => st
  | .setMatrix a b c d e f => { st with ctm := [val a, val b, val c, val d, val e, val f] }
  | .fillRGB r g b => { st with fill := [val r, val g, val b] }
  | .strokeRGB r g b => { st with stroke := [val r, val g, val b] }
  | .lineTo _ _ => { st with graphics := st.graphics ++ [.line st.stroke st.lineWidth] }
  | .rectangle x y w h => { st with graphics := st.graphics ++
      [.rect st.fill st.stroke st.lineWidth (val x) (val y) (fl.add (val x) (val w)) (fl.add (val y) (val h))] }
  | .lineWidth w => { st with lineWidth := val w }
  | .setFont name size => { st with t := { st.t with font := name, size := val size, decoder := match fonts with
      | some m => m.get name
      | none => st.t.decoder } }
  | .textPosition x y => { st with t := { st.t with x := fl.add st.t.x (val x), y := fl.add st.t.y (val y) } }
  | .textMatrix a b c d e f =>
    { st with t := { st.t with matrix := [val a, val b, val c, val d, val e, val f], x := val e, y := val f } }
  | .showText s => st.show (decodeLit st.t.decoder s)
  | .showTextNextLine s =>
    let s' := st.show (decodeLit st.t.decoder s)
    { s' with t := { s'.t with y := fl.nextLine s'.t.y s'.t.size } }
  | .showTextArray ps => st.show (ps.flatMap fun p => match p with
      | .text s => decodeLit st.t.decoder s
      | _ => [])
  | .showTextHex h => st.show (decodeHexText st.t.decoder h)
  | .charSpacing s => { st with t := { st.t with charSp := val s } }
  | .wordSpacing s => { st with t := { st.t with wordSp := val s } }
  | .rise s => { st with t := { st.t with rise := val s } }
  | .drawImage name => { st with images := st.images ++ [⟨name, st.ctm⟩] }
  | _ => st

/-! ### Lines of numbers and an operator -/

theorem reLit_nums {ns : List Bytes} (h : ∀ n ∈ ns, NumText n) (h0 : ns ≠ []) (op : Bytes) {c : UInt8} {r : Bytes} (hc : isNumC c = false) :
    (c :: r).isPrefixOf (spacedNums ns ++ op) = false := by
  obtain ⟨n, ns, rfl⟩ := List.exists_cons_of_ne_nil h0
  obtain ⟨h1, h2⟩ := h n (by simp)
  obtain ⟨d, m, rfl⟩ := List.exists_cons_of_ne_nil h1
  have hd := h2 d (by simp)
  exact prefix_head (by rintro rfl; rw [hd] at hc; exact absurd hc (by decide)) _ _

theorem tight_nums {ns : List Bytes} (h : ∀ n ∈ ns, NumText n) (h0 : ns ≠ []) {op : Bytes} {d : UInt8} (hd : op.getLast? = some d)
    (hs : isSpace d = false) : Tight (spacedNums ns ++ op) := by
  obtain ⟨n, ns, rfl⟩ := List.exists_cons_of_ne_nil h0
  obtain ⟨h1, h2⟩ := h n (by simp)
  obtain ⟨c, m, rfl⟩ := List.exists_cons_of_ne_nil h1
  have hc := h2 c (by simp)
  refine ⟨c, d, rfl, ?_, ?_, hs⟩
  · have : ∀ c : UInt8, isNumC c = true → isSpace c = false := by apply forall_byte; decide +kernel
    exact this c hc
  · rw [List.getLast?_append, hd]; rfl

theorem showOps_nums (fl : Floats F) (st : State F) {ns : List Bytes} (h : ∀ n ∈ ns, NumText n) (h0 : ns ≠ []) (op : Bytes) :
    showOps fl st (spacedNums ns ++ op) = none := by
  obtain ⟨n, ns, rfl⟩ := List.exists_cons_of_ne_nil h0
  obtain ⟨h1, h2⟩ := h n (by simp)
  obtain ⟨c, m, rfl⟩ := List.exists_cons_of_ne_nil h1
  have hc := h2 c (by simp)
  have e : spacedNums ((c :: m) :: ns) ++ op = c :: (m ++ b!" " ++ spacedNums ns ++ op) := by simp [spacedNums]
  rw [e]
  refine showOps_none fl st _ ?_ ?_ ?_ <;> (rintro rfl; exact absurd hc (by decide))

theorem opText_of {c : UInt8} {r : Bytes} (h : isNumC c = false ∧ reSpace c = false) : OpText (c :: r) := ⟨c, r, rfl, h.1, h.2⟩

/-- How the formats of numbers behave. -/
structure Fmt (fl : Floats F) (val : F → F) (fmt : F → Bytes) : Prop where
  num : ∀ x, NumText (fmt x)
  parse : ∀ x, fl.parse (fmt x) = some (val x)

theorem Fmt.all {fl : Floats F} {val : F → F} {fmt : F → Bytes} (H : Fmt fl val fmt) (xs : List F) : ∀ n ∈ xs.map fmt, NumText n := by
  intro n hn
  obtain ⟨x, _, rfl⟩ := List.mem_map.1 hn
  exact H.num x

/-- The text operators in the order in which the reader tries them, for a line of numbers and an operator. -/
def numText (fl : Floats F) (st : State F) (ns : List Bytes) (op : Bytes) : Option (State F) :=
      match (if 2 = ns.length then (reLit b!"Td" op).map fun _ => ns else none) with
      | some ns => some (match floatsOf fl ns with
          | some [x, y] => { st with t := { st.t with x := fl.add st.t.x x, y := fl.add st.t.y y } }
          | _ => st)
      | none => match (if 6 = ns.length then (reLit b!"Tm" op).map fun _ => ns else none) with
      | some ns => some { st with t := { st.t with matrix := matrixOf fl ns, x := (matrixOf fl ns).getD 4 fl.zero, y := (matrixOf fl ns).getD 5 fl.zero } }
      | none => match (if 1 = ns.length then (reLit b!"Tc" op).map fun _ => ns else none) with
      | some ns => some { st with t := { st.t with charSp := (fl.parse (ns.headD [])).getD st.t.charSp } }
      | none => match (if 1 = ns.length then (reLit b!"Tw" op).map fun _ => ns else none) with
      | some ns => some { st with t := { st.t with wordSp := (fl.parse (ns.headD [])).getD st.t.wordSp } }
      | none => match (if 1 = ns.length then (reLit b!"Ts" op).map fun _ => ns else none) with
      | some ns => some { st with t := { st.t with rise := (fl.parse (ns.headD [])).getD st.t.rise } }
      | none => none

/-- The same for the graphics operators. -/
def numGfx (fl : Floats F) (st : State F) (ns : List Bytes) (op : Bytes) : Option (State F) :=
      match (if 4 = ns.length then (reLit b!"re" op).map fun _ => ns else none) with
      | some ns => some (match floatsOf fl ns with
          | some [x, y, w, h] =>
            { st with graphics := st.graphics ++ [.rect st.fill st.stroke st.lineWidth x y (fl.add x w) (fl.add y h)] }
          | _ => st)
      | none => match (if 2 = ns.length then (reLit b!"m" op).map fun _ => ns else none) with
      | some _ => some st
      | none => match (if 2 = ns.length then (reLit b!"l" op).map fun _ => ns else none) with
      | some _ => some { st with graphics := st.graphics ++ [.line st.stroke st.lineWidth] }
      | none => match (if 6 = ns.length then (reLit b!"cm" op).map fun _ => ns else none) with
      | some ns => some { st with ctm := matrixOf fl ns }
      | none => match (if 1 = ns.length then (reLit b!"w" op).map fun _ => ns else none) with
      | some ns => some { st with lineWidth := (fl.parse (ns.headD [])).getD st.lineWidth }
      | none => match (if 3 = ns.length then (reLit b!"rg" op).map fun _ => ns else none) with
      | some ns => some { st with fill := (floatsOf fl ns).getD st.fill }
      | none => match (if 3 = ns.length then (reLit b!"RG" op).map fun _ => ns else none) with
      | some ns => some { st with stroke := (floatsOf fl ns).getD st.stroke }
      | none => none

theorem textOps_nums (fl : Floats F) (fonts : Option (Map Bytes Decoder)) (st : State F) {ns : List Bytes} (h : ∀ n ∈ ns, NumText n)
    (h0 : ns ≠ []) {op : Bytes} (ho : OpText op) (hop : reLit b!"Tf" op = none) :
    textOps fl fonts st (spacedNums ns ++ op) = numText fl st ns op := by
  unfold textOps
  rw [reLit_nums h h0 op (by decide), reLit_nums h h0 op (by decide), reOp_spaced h ho (opText_of (by decide)), reOp_spaced h ho (opText_of (by decide)), 
    reFont_nums h h0 ho hop, reOp_spaced h ho (opText_of (by decide)), reOp_spaced h ho (opText_of (by decide)), reOp_spaced h ho (opText_of (by decide))]
  rfl

theorem graphicsOps_nums (fl : Floats F) (st : State F) {ns : List Bytes} (h : ∀ n ∈ ns, NumText n)
    (h0 : ns ≠ []) {op : Bytes} (ho : OpText op) (hop : reLit b!"Do" op = none) :
    graphicsOps fl st (spacedNums ns ++ op) = numGfx fl st ns op := by
  have hq : ∀ c : UInt8, isNumC c = false → spacedNums ns ++ op ≠ [c] := by
    intro c hc he
    have := reLit_nums h h0 op (c := c) (r := []) hc
    rw [he] at this
    simp [List.isPrefixOf] at this
  unfold graphicsOps
  rw [reOp_spaced h ho (opText_of (by decide)), reOp_spaced h ho (opText_of (by decide)), reOp_spaced h ho (opText_of (by decide)), reLit_nums h h0 op (by decide), reLit_nums h h0 op (by decide), if_neg (show ¬ false = true by decide), if_neg (show ¬ false = true by decide), if_neg (hq 113 (by decide)), if_neg (hq 81 (by decide)),
    reOp_spaced h ho (opText_of (by decide)), reOp_spaced h ho (opText_of (by decide)), reOp_spaced h ho (opText_of (by decide)), reOp_spaced h ho (opText_of (by decide)), reDo_nums h h0 ho hop]
  rfl

section
variable {fl : Floats F} {val : F → F} {fmt : F → Bytes} (H : Fmt fl val fmt) (fonts : Option (Map Bytes Decoder)) (st : State F)

include H in
theorem nums_line {xs : List F} (h0 : xs ≠ []) {op : Bytes} (ho : OpText op) (h1 : reLit b!"Tf" op = none) (h2 : reLit b!"Do" op = none)
    {d : UInt8} (hd : op.getLast? = some d) (hs : isSpace d = false) :
    lineStep fl fonts st (numList fmt xs ++ op) = match numText fl st (xs.map fmt) op with
      | some s => s
      | none => (numGfx fl st (xs.map fmt) op).getD st := by
  have h0' : xs.map fmt ≠ [] := by simpa using h0
  rw [numList_eq, lineStep_tight fl fonts st (tight_nums (H.all xs) h0' hd hs), showOps_nums fl st (H.all xs) h0',
    textOps_nums fl fonts st (H.all xs) h0' ho h1, graphicsOps_nums fl st (H.all xs) h0' ho h2]

/-- Calls that write numbers and an operator. -/
def isNums : Call F → Bool
  | .setMatrix _ _ _ _ _ _ => true
  | .fillRGB _ _ _ => true
  | .strokeRGB _ _ _ => true
  | .fillGray _ => true
  | .strokeGray _ => true
  | .moveTo _ _ => true
  | .lineTo _ _ => true
  | .rectangle _ _ _ _ => true
  | .lineWidth _ => true
  | .textPosition _ _ => true
  | .textMatrix _ _ _ _ _ _ => true
  | .moveTextPosition _ _ => true
  | .leading _ => true
  | .charSpacing _ => true
  | .wordSpacing _ => true
  | .rise _ => true
  | .curveTo _ _ _ _ _ _ => true
  | .curveToV _ _ _ _ => true
  | .curveToY _ _ _ _ => true
  | _ => false

include H in
theorem line_nums (c : Call F) (hc : isNums c = true) : lineStep fl fonts st (render fmt c) = sem fl val fonts st c := by
  cases c <;> simp only [isNums, Bool.false_eq_true] at hc
  all_goals
    rw [render, nums_line H fonts st (by simp) (opText_of (by decide)) (by decide) (by decide) rfl (by decide)]
    simp [numText, numGfx, reLit, List.isPrefixOf, floatsOf, matrixOf, H.parse, sem]

/-- Calls that write a fixed text. -/
def isFixed : Call F → Bool
  | .saveState | .restoreState | .stroke | .fill | .fillStroke | .closePath | .closePathStroke | .beginText | .endText | .nextLine => true
  | _ => false

theorem line_fixed (c : Call F) (hc : isFixed c = true) : lineStep fl fonts st (render fmt c) = sem fl val fonts st c := by
  cases c <;> simp only [isFixed, Bool.false_eq_true] at hc
  all_goals
    rw [render, lineStep_tight fl fonts st ⟨_, _, rfl, by decide, rfl, by decide⟩]
  case beginText => rfl
  case endText => rfl
  all_goals
    rw [textOps_none fl fonts st _ (by decide) (by decide) (by decide) (by decide) (by decide) (by decide) (by decide) (by decide),
      showOps_none fl st _ (by decide) (by decide) (by decide)]
  case fillStroke => rfl
  case closePath => rfl
  case closePathStroke => rfl
  case nextLine => rfl
  case stroke => rfl
  case fill => rfl
  case saveState => rfl
  case restoreState =>
    obtain ⟨t, lw, fi, sk, ctm, stack, te, g, im⟩ := st
    cases stack <;> rfl

theorem line_mode (m : Int) : lineStep fl fonts st (render fmt (.renderMode m)) = sem fl val fonts st (.renderMode m) := by
  have hn : ∀ n ∈ [itoa m], NumText n := by
    intro n hn
    simp only [List.mem_singleton] at hn
    subst hn
    have hd : ∀ (k : Nat), NumText (natDec k) := by
      intro k
      refine ⟨natDec_ne_nil k, fun c hc => ?_⟩
      simp [isNumC, natDec_digits k c hc]
    cases m with
    | ofNat k => exact hd k
    | negSucc k =>
      have := hd (k + 1)
      refine ⟨by simp [itoa], fun c hc => ?_⟩
      simp only [itoa, List.mem_append, List.mem_cons, List.not_mem_nil, or_false] at hc
      rcases hc with rfl | hc
      · decide
      · exact this.2 c hc
  have e : render fmt (.renderMode m : Call F) = spacedNums [itoa m] ++ b!"Tr" := by simp [render, spacedNums]
  rw [e, lineStep_tight fl fonts st (tight_nums hn (by simp) rfl (by decide)), showOps_nums fl st hn (by simp),
    textOps_nums fl fonts st hn (by simp) (opText_of (by decide)) (by decide), graphicsOps_nums fl st hn (by simp) (opText_of (by decide)) (by decide)]
  simp [numText, numGfx, reLit, List.isPrefixOf, sem]

/-! ### Names -/

theorem name_chars {n : Bytes} (h : NameOK n) : ∃ w, n = 47 :: w ∧ ∀ c ∈ n, isNameC c = true ∧ isNumC c = isDigit c := by
  obtain ⟨w, rfl, -, h⟩ := h
  refine ⟨w, rfl, fun c hc => ?_⟩
  have key : ∀ c : UInt8, ((48 ≤ c ∧ c ≤ 57) ∨ (65 ≤ c ∧ c ≤ 90) ∨ (97 ≤ c ∧ c ≤ 122) ∨ c = 95) ∨ c = 47 →
      isNameC c = true ∧ isNumC c = isDigit c := by apply forall_byte; decide +kernel
  rcases List.mem_cons.1 hc with rfl | hc
  · exact key _ (.inr rfl)
  · exact key _ (.inl (h c hc))

theorem take_name {n : Bytes} (h : NameOK n) (r : Bytes) : (n ++ 32 :: r).takeWhile isNameC = n ∧ (n ++ 32 :: r).dropWhile isNameC = 32 :: r := by
  obtain ⟨w, -, h⟩ := name_chars h
  have h : ∀ x ∈ n, isNameC x = true := fun x hx => (h x hx).1
  constructor
  · rw [List.takeWhile_append_of_pos h, List.takeWhile_cons_of_neg (by decide)]; simp
  · rw [List.dropWhile_append_of_pos h, List.dropWhile_cons_of_neg (by decide)]

include H in
theorem line_font {n : Bytes} (hn : NameOK n) (x : F) : lineStep fl fonts st (render fmt (.setFont n x)) = sem fl val fonts st (.setFont n x) := by
  obtain ⟨w, hw, -⟩ := name_chars hn
  have e : render fmt (.setFont n x : Call F) = n ++ 32 :: (spacedNums [fmt x] ++ b!"Tf") := by simp [render, numList, spacedNums]
  have hx : ∀ m ∈ [fmt x], NumText m := H.all [x]
  have e2 : n ++ 32 :: (spacedNums [fmt x] ++ b!"Tf") = 47 :: (w ++ 32 :: (spacedNums [fmt x] ++ b!"Tf")) := by rw [hw]; rfl
  have hf : reFont (n ++ 32 :: (spacedNums [fmt x] ++ b!"Tf")) = some (n, fmt x) := by
    unfold reFont
    rw [(take_name hn _).1, (take_name hn _).2, if_neg (by rw [hw]; simp)]
    obtain ⟨c, r, e3, h1, -⟩ := head_nums hx (op := b!"Tf") (opText_of (by decide))
    rw [e3, sp1_cons h1, Option.bind_some, ← e3, reNums_spaced hx (opText_of (by decide))]
    simp [spacedNums, reLit, List.isPrefixOf]
  have ht : Tight (n ++ 32 :: (spacedNums [fmt x] ++ b!"Tf")) := by
    refine ⟨47, 102, by rw [e2]; rfl, by decide, ?_, by decide⟩
    have e3 : n ++ 32 :: (spacedNums [fmt x] ++ b!"Tf") = (n ++ 32 :: spacedNums [fmt x]) ++ b!"Tf" := by simp
    rw [e3, List.getLast?_append]
    rfl
  rw [e, lineStep_tight fl fonts st ht]
  have h3 : textOps fl fonts st (n ++ 32 :: (spacedNums [fmt x] ++ b!"Tf")) = some (sem fl val fonts st (.setFont n x)) := by
    unfold textOps
    rw [hf, e2, prefix_head (by decide), prefix_head (by decide), reOp_head (by decide), reOp_head (by decide)]
    simp only [Bool.false_eq_true, if_false, H.parse, Option.getD_some, sem]
    cases fonts <;> rfl
  rw [h3]

theorem line_image {n : Bytes} (hn : NameOK n) : lineStep fl fonts st (render fmt (.drawImage n)) = sem fl val fonts st (.drawImage n) := by
  obtain ⟨w, hw, -⟩ := name_chars hn
  have e : render fmt (.drawImage n : Call F) = n ++ 32 :: b!"Do" := by simp [render]
  have e2 : n ++ 32 :: b!"Do" = 47 :: (w ++ 32 :: b!"Do") := by rw [hw]; rfl
  have hf : reFont (n ++ 32 :: b!"Do") = none := by
    unfold reFont
    rw [(take_name hn _).1, (take_name hn _).2, if_neg (by rw [hw]; simp), sp1_cons (by decide)]
    rfl
  have hd : reDo (n ++ 32 :: b!"Do") = some n := by
    unfold reDo
    rw [(take_name hn _).1, (take_name hn _).2, if_neg (by rw [hw]; simp), sp1_cons (by decide)]
    rfl
  have ht : Tight (n ++ 32 :: b!"Do") := by
    refine ⟨47, 111, by rw [e2]; rfl, by decide, ?_, by decide⟩
    rw [List.getLast?_append]
    rfl
  rw [e, lineStep_tight fl fonts st ht]
  rw [textOps_none fl fonts st _ (by rw [e2]; exact prefix_head (by decide) _ _) (by rw [e2]; exact prefix_head (by decide) _ _)
    (by rw [e2]; exact reOp_head (by decide) _ _ _) (by rw [e2]; exact reOp_head (by decide) _ _ _) hf
    (by rw [e2]; exact reOp_head (by decide) _ _ _) (by rw [e2]; exact reOp_head (by decide) _ _ _) (by rw [e2]; exact reOp_head (by decide) _ _ _)]
  rw [show showOps fl st (n ++ 32 :: b!"Do") = none by rw [e2]; exact showOps_none fl st _ (by decide) (by decide) (by decide)]
  have h3 : graphicsOps fl st (n ++ 32 :: b!"Do") = some (sem fl val fonts st (.drawImage n)) := by
    unfold graphicsOps
    rw [hd, e2, reOp_head (by decide), reOp_head (by decide), reOp_head (by decide), prefix_head (by decide), prefix_head (by decide),
      reOp_head (by decide), reOp_head (by decide), reOp_head (by decide), reOp_head (by decide),
      if_neg (show ¬ false = true by decide), if_neg (show ¬ false = true by decide), if_neg (by simp), if_neg (by simp)]
    rfl
  rw [h3]
  rfl

/-! ### Strings -/

theorem escByte_chars (c : UInt8) : (10 : UInt8) ∉ escByte c ∧ (c ≠ 41 → (41 : UInt8) ∉ escByte c) ∧ (c ≠ 93 → (93 : UInt8) ∉ escByte c) := by
  revert c
  apply forall_byte
  decide +kernel

theorem escape_of (s : Bytes) (h : TextOK s) : escapePDFString s = s.flatMap escByte ∧ unescapePDFString (escapePDFString s) = s := by
  obtain ⟨⟨t, rfl⟩, h2⟩ := h
  refine ⟨escapePDFString_utf8 t, ?_⟩
  rw [escapePDFString_utf8, unescape_escape, mangled_eq_iff]
  exact h2

theorem escape_not {s : Bytes} (h : TextOK s) : (10 : UInt8) ∉ escapePDFString s ∧ ((41 : UInt8) ∉ s → (41 : UInt8) ∉ escapePDFString s) ∧
    ((93 : UInt8) ∉ s → (93 : UInt8) ∉ escapePDFString s) := by
  rw [(escape_of s h).1]
  simp only [List.mem_flatMap, not_exists, not_and]
  refine ⟨fun c _ => (escByte_chars c).1, fun h c hc => (escByte_chars c).2.1 (by rintro rfl; exact h hc),
    fun h c hc => (escByte_chars c).2.2 (by rintro rfl; exact h hc)⟩

theorem reShow_line {e : Bytes} (he : (41 : UInt8) ∉ e) (op op' : Bytes) {c : UInt8} {r : Bytes} (ho : op' = c :: r) (hc : reSpace c = false) :
    reShow op (b!"(" ++ e ++ b!") " ++ op') = (reLit op op').map fun _ => e := by
  unfold reShow Forms.reParen
  have e1 : b!"(" ++ e ++ b!") " ++ op' = b!"(" ++ (e ++ 41 :: 32 :: op') := by simp
  have h : ∀ x ∈ e, decide (x ≠ 41) = true := by intro x hx; simp; rintro rfl; exact he hx
  have e2 : (e ++ 41 :: 32 :: op').takeWhile (fun x => decide (x ≠ 41)) = e := by
    rw [List.takeWhile_append_of_pos h, List.takeWhile_cons_of_neg (by decide)]; simp
  have e3 : (e ++ 41 :: 32 :: op').dropWhile (fun x => decide (x ≠ 41)) = 41 :: 32 :: op' := by
    rw [List.dropWhile_append_of_pos h, List.dropWhile_cons_of_neg (by decide)]
  rw [e1, reLit_append, Option.bind_some, if_pos (by simp), e2, e3]
  simp only [Option.bind_some, List.drop_succ_cons, List.drop_zero]
  rw [ho, sp1_cons hc]
  rfl

theorem textOps_str {c : UInt8} (r : Bytes) (h1 : isNumC c = false) (h2 : isNameC c = false) : textOps fl fonts st (c :: r) = none := by
  refine textOps_none fl fonts st _ (prefix_head ?_ _ _) (prefix_head ?_ _ _) (reOp_head h1 _ _ _) (reOp_head h1 _ _ _) (reFont_head h2 _)
    (reOp_head h1 _ _ _) (reOp_head h1 _ _ _) (reOp_head h1 _ _ _)
  · rintro rfl; exact absurd h2 (by decide)
  · rintro rfl; exact absurd h2 (by decide)

theorem tight_mid {a m b : Bytes} {c d : UInt8} (ha : a.head? = some c) (hc : isSpace c = false) (hb : b.getLast? = some d) (hd : isSpace d = false) :
    Tight (a ++ m ++ b) := by
  refine ⟨c, d, ?_, hc, ?_, hd⟩
  · rw [List.head?_append, List.head?_append, ha]; rfl
  · rw [List.getLast?_append, hb]; rfl

theorem line_show {s : Bytes} (hs : TextOK s) (h : (41 : UInt8) ∉ s) :
    lineStep fl fonts st (render fmt (.showText s)) = sem fl val fonts st (.showText s) := by
  have he := (escape_not hs).2.1 h
  have e : render fmt (.showText s : Call F) = b!"(" ++ escapePDFString s ++ b!") " ++ b!"Tj" := by simp [render]
  have ht : Tight (b!"(" ++ escapePDFString s ++ b!") " ++ b!"Tj") := by
    have := tight_mid (a := b!"(") (m := escapePDFString s) (b := b!") Tj") rfl (by decide) rfl (by decide)
    simpa using this
  rw [e, lineStep_tight fl fonts st ht]
  rw [show textOps fl fonts st (b!"(" ++ escapePDFString s ++ b!") " ++ b!"Tj") = none from textOps_str fonts st _ (by decide) (by decide)]
  have h3 : showOps fl st (b!"(" ++ escapePDFString s ++ b!") " ++ b!"Tj") = some (sem fl val fonts st (.showText s)) := by
    unfold showOps
    rw [reShow_line he b!"Tj" b!"Tj" rfl (by decide)]
    simp only [show reLit b!"Tj" b!"Tj" = some [] by decide, Option.map_some, (escape_of s hs).2, sem]
  rw [h3]

theorem line_next {s : Bytes} (hs : TextOK s) (h : (41 : UInt8) ∉ s) :
    lineStep fl fonts st (render fmt (.showTextNextLine s)) = sem fl val fonts st (.showTextNextLine s) := by
  have he := (escape_not hs).2.1 h
  have e : render fmt (.showTextNextLine s : Call F) = b!"(" ++ escapePDFString s ++ b!") " ++ b!"'" := by simp [render]
  have ht : Tight (b!"(" ++ escapePDFString s ++ b!") " ++ b!"'") := by
    have := tight_mid (a := b!"(") (m := escapePDFString s) (b := b!") '") rfl (by decide) rfl (by decide)
    simpa using this
  rw [e, lineStep_tight fl fonts st ht]
  rw [show textOps fl fonts st (b!"(" ++ escapePDFString s ++ b!") " ++ b!"'") = none from textOps_str fonts st _ (by decide) (by decide)]
  have h3 : showOps fl st (b!"(" ++ escapePDFString s ++ b!") " ++ b!"'") = some (sem fl val fonts st (.showTextNextLine s)) := by
    unfold showOps
    rw [reShow_line he b!"Tj" b!"'" rfl (by decide), reShow_line he b!"'" b!"'" rfl (by decide)]
    rw [show reShowHex b!"Tj" (b!"(" ++ escapePDFString s ++ b!") " ++ b!"'") = none from reShowHex_head (by decide) _ _]
    simp only [show reLit b!"Tj" b!"'" = none by decide, show reLit b!"'" b!"'" = some [] by decide, Option.map_some, Option.map_none,
      (escape_of s hs).2, sem]
  rw [h3]

theorem line_hex {h : Bytes} (h1 : (Spec.Enc.hexBytes h).isSome = true) (h2 : ∀ c ∈ h, Spec.Enc.white c = true → c = 32) :
    lineStep fl fonts st (render fmt (.showTextHex h)) = sem fl val fonts st (.showTextHex h) := by
  obtain ⟨data, hd⟩ := Option.isSome_iff_exists.1 h1
  have hc : ∀ c ∈ h, (isHex c || reSpace c) = true := by
    intro c hc
    by_cases hw : Spec.Enc.white c = true
    · rw [h2 c hc hw]; decide
    · rw [pairUp_hex hd c (List.mem_filter.2 ⟨hc, by simpa using hw⟩)]; rfl
  have e : render fmt (.showTextHex h : Call F) = 60 :: (h ++ 62 :: 32 :: b!"Tj") := by simp [render]
  have ht : Tight (60 :: (h ++ 62 :: 32 :: b!"Tj")) := by
    have := tight_mid (a := b!"<") (m := h) (b := b!"> Tj") rfl (by decide) rfl (by decide)
    simpa using this
  rw [e, lineStep_tight fl fonts st ht, textOps_str fonts st _ (by decide) (by decide)]
  have h3 : showOps fl st (60 :: (h ++ 62 :: 32 :: b!"Tj")) = some (sem fl val fonts st (.showTextHex h)) := by
    have e2 : reShowHex b!"Tj" (60 :: (h ++ 62 :: 32 :: b!"Tj")) = some h := by
      unfold reShowHex
      rw [show reLit b!"<" (60 :: (h ++ 62 :: 32 :: b!"Tj")) = some (h ++ 62 :: 32 :: b!"Tj") from reLit_append b!"<" _, Option.bind_some,
        List.takeWhile_append_of_pos hc, List.dropWhile_append_of_pos hc, List.takeWhile_cons_of_neg (by decide), List.dropWhile_cons_of_neg (by decide)]
      rw [show reLit b!">" (62 :: 32 :: b!"Tj") = some (32 :: b!"Tj") by decide, Option.bind_some, sp1_cons (by decide)]
      simp [reLit, List.isPrefixOf]
    unfold showOps
    rw [reShow_head (by decide), e2]
    rfl
  rw [h3]

/-! ### Arrays -/

theorem escByte_cases (c : UInt8) : (escByte c = [c] ∧ c ≠ 40 ∧ c ≠ 41 ∧ c ≠ 92) ∨ ∃ x, escByte c = [92, x] := by
  by_cases h : c ∈ b!"()\\\n\r\t"
  · right
    simp only [List.mem_cons, List.not_mem_nil, or_false] at h
    rcases h with h | h | h | h | h | h <;> (rw [h]; exact ⟨_, rfl⟩)
  · left
    simp only [List.mem_cons, List.not_mem_nil, or_false, not_or] at h
    obtain ⟨h1, h2, h3, h4, h5, h6⟩ := h
    exact ⟨by simp [escByte, h1, h2, h3, h4, h5, h6], h1, h2, h3⟩

theorem scan_text (d : Option Decoder) (s rest : Bytes) : ∀ acc, scanArr d (.lit acc 1) (s.flatMap escByte ++ 41 :: rest) =
    decodeLit d (unescapePDFString (acc.reverse ++ s.flatMap escByte)) ++ scanArr d .out rest := by
  induction s with
  | nil =>
    intro acc
    rw [List.flatMap_nil, List.nil_append, List.append_nil, scanArr]
    · simp
    · intro e r h; simp at h
  | cons c s ih =>
    intro acc
    rw [List.flatMap_cons, List.append_assoc]
    rcases escByte_cases c with ⟨h, h1, h2, h3⟩ | ⟨x, h⟩
    · rw [h, List.singleton_append, scanArr]
      · rw [if_neg h1, if_neg h2, ih]
        simp
      · intro e r h; exact absurd h h3
    · rw [h, List.cons_append, List.singleton_append, scanArr, ih]
      simp

theorem scan_skip (d : Option Decoder) {n : Bytes} (h : ∀ c ∈ n, c ≠ 40 ∧ c ≠ 60) (rest : Bytes) :
    scanArr d .out (n ++ rest) = scanArr d .out rest := by
  induction n with
  | nil => rfl
  | cons c n ih =>
    obtain ⟨h1, h2⟩ := h c (by simp)
    rw [List.cons_append, scanArr, if_neg h1, if_neg h2, ih (fun c hc => h c (by simp [hc]))]

theorem num_skip {n : Bytes} (h : NumText n) : ∀ c ∈ n, c ≠ 40 ∧ c ≠ 60 := by
  intro c hc
  have := h.2 c hc
  constructor <;> (rintro rfl; exact absurd this (by decide))

theorem itoa_num (m : Int) : NumText (itoa m) := by
  have hd : ∀ (k : Nat), NumText (natDec k) := by
    intro k
    refine ⟨natDec_ne_nil k, fun c hc => ?_⟩
    simp [isNumC, natDec_digits k c hc]
  cases m with
  | ofNat k => exact hd k
  | negSucc k =>
    have := hd (k + 1)
    refine ⟨by simp [itoa], fun c hc => ?_⟩
    simp only [itoa, List.mem_cons] at hc
    rcases hc with rfl | hc
    · decide
    · exact this.2 c hc

theorem pieces_cons (fmt : F → Bytes) (p p2 : Piece F) (ps : List (Piece F)) :
    pieces fmt (p :: p2 :: ps) = piece fmt p ++ b!" " ++ pieces fmt (p2 :: ps) := by rw [pieces]; simp

theorem dashes_cons (fmt : F → Bytes) (x y : F) (ds : List F) : dashes fmt (x :: y :: ds) = fmt x ++ b!" " ++ dashes fmt (y :: ds) := by
  rw [dashes]; simp

/-- The text an element adds. -/
def pieceOut (d : Option Decoder) : Piece F → Bytes
  | .text s => decodeLit d s
  | _ => []

include H in
theorem scan_piece (d : Option Decoder) (p : Piece F) (hp : ∀ s, p = .text s → TextOK s) (rest : Bytes) :
    scanArr d .out (piece fmt p ++ rest) = pieceOut d p ++ scanArr d .out rest := by
  cases p with
  | text s =>
    have hs := hp s rfl
    have e : piece fmt (.text s) ++ rest = 40 :: (s.flatMap escByte ++ 41 :: rest) := by simp [piece, (escape_of s hs).1]
    rw [e, scanArr, if_pos rfl, scan_text, List.reverse_nil, List.nil_append, ← (escape_of s hs).1, (escape_of s hs).2]
    rfl
  | int n => exact scan_skip d (num_skip (itoa_num n)) rest
  | float x => exact scan_skip d (num_skip (H.num x)) rest

include H in
theorem scan_pieces (d : Option Decoder) (ps : List (Piece F)) (hp : ∀ s, .text s ∈ ps → TextOK s) :
    scanArr d .out (pieces fmt ps) = ps.flatMap (pieceOut d) := by
  induction ps with
  | nil => rfl
  | cons p ps ih =>
    have h1 : ∀ s, p = .text s → TextOK s := fun s h => hp s (by simp [h])
    have ih := ih (fun s hs => hp s (List.mem_cons_of_mem _ hs))
    cases ps with
    | nil =>
      have := scan_piece H d p h1 []
      rw [List.append_nil] at this
      rw [pieces, this]
      simp [scanArr]
    | cons p2 ps =>
      rw [pieces_cons, List.append_assoc, scan_piece H d p h1, scan_skip d (n := b!" ") (by decide), ih]
      rfl

include H in
/-- The ends of an element, and the characters in it. -/
theorem piece_ends (p : Piece F) : ∃ c d, (piece fmt p).head? = some c ∧ (piece fmt p).getLast? = some d ∧ isSpace c = false ∧ isSpace d = false ∧
    c ≠ 91 := by
  have key : ∀ c : UInt8, isNumC c = true → isSpace c = false ∧ c ≠ 91 := by apply forall_byte; decide +kernel
  have hn : ∀ n : Bytes, NumText n → ∃ c d, n.head? = some c ∧ n.getLast? = some d ∧ isSpace c = false ∧ isSpace d = false ∧ c ≠ 91 := by
    intro n ⟨h1, h2⟩
    refine ⟨n.head h1, n.getLast h1, List.head?_eq_some_head h1, List.getLast?_eq_some_getLast h1, ?_, ?_, ?_⟩
    · exact (key _ (h2 _ (List.head_mem h1))).1
    · exact (key _ (h2 _ (List.getLast_mem h1))).1
    · exact (key _ (h2 _ (List.head_mem h1))).2
  cases p with
  | text s =>
    refine ⟨40, 41, rfl, ?_, by decide, by decide, by decide⟩
    rw [piece, List.getLast?_append]; rfl
  | int n => exact hn _ (itoa_num n)
  | float x => exact hn _ (H.num x)

include H in
theorem pieces_ends {ps : List (Piece F)} (h : ps ≠ []) : ∃ c d, (pieces fmt ps).head? = some c ∧ (pieces fmt ps).getLast? = some d ∧ isSpace c = false ∧
    isSpace d = false ∧ c ≠ 91 := by
  induction ps with
  | nil => exact absurd rfl h
  | cons p ps ih =>
    cases ps with
    | nil => exact piece_ends H p
    | cons p2 ps =>
      obtain ⟨c, d, h1, h2, h3, h4, h5⟩ := piece_ends H p
      obtain ⟨c', d', g1, g2, g3, g4, g5⟩ := ih (by simp)
      refine ⟨c, d', ?_, ?_, h3, g4, h5⟩
      · rw [pieces_cons, List.head?_append, List.head?_append, h1]; rfl
      · rw [pieces_cons, List.getLast?_append, g2]; rfl

include H in
theorem pieces_no93 {ps : List (Piece F)} (hp : ∀ s, .text s ∈ ps → TextOK s ∧ (93 : UInt8) ∉ s) : (93 : UInt8) ∉ pieces fmt ps := by
  have hn : ∀ n : Bytes, NumText n → (93 : UInt8) ∉ n := fun n hn hm => absurd (hn.2 _ hm) (by decide)
  have h1 : ∀ p ∈ ps, (93 : UInt8) ∉ piece fmt p := by
    intro p hm
    cases p with
    | text s =>
      obtain ⟨a, b⟩ := hp s hm
      have := (escape_not a).2.2 b
      simp [piece, this]
    | int n => exact hn _ (itoa_num n)
    | float x => exact hn _ (H.num x)
  clear hp
  induction ps with
  | nil => simp [pieces]
  | cons p ps ih =>
    have ih := ih (fun p hp => h1 p (List.mem_cons_of_mem _ hp))
    have hp := h1 p (by simp)
    cases ps with
    | nil => exact hp
    | cons p2 ps =>
      rw [pieces_cons]
      simp only [List.mem_append, not_or]
      exact ⟨⟨hp, by decide⟩, ih⟩

include H in
theorem line_array {ps : List (Piece F)} (h0 : ps ≠ []) (hp : ∀ s, .text s ∈ ps → TextOK s ∧ (93 : UInt8) ∉ s) :
    lineStep fl fonts st (render fmt (.showTextArray ps)) = sem fl val fonts st (.showTextArray ps) := by
  obtain ⟨c, d, g1, g2, g3, g4, g5⟩ := pieces_ends H h0
  have h93 := pieces_no93 H hp
  have hne : pieces fmt ps ≠ [] := by intro h; rw [h] at g1; simp at g1
  have e : render fmt (.showTextArray ps : Call F) = 91 :: (pieces fmt ps ++ 93 :: 32 :: b!"TJ") := by simp [render]
  have ht : Tight (91 :: (pieces fmt ps ++ 93 :: 32 :: b!"TJ")) := by
    have := tight_mid (a := b!"[") (m := pieces fmt ps) (b := b!"] TJ") rfl (by decide) rfl (by decide)
    simpa using this
  have hc : ∀ x ∈ pieces fmt ps, decide (x ≠ 93) = true := by intro x hx; simp; rintro rfl; exact h93 hx
  rw [e, lineStep_tight fl fonts st ht, textOps_str fonts st _ (by decide) (by decide)]
  have e2 : reShowArr (91 :: (pieces fmt ps ++ 93 :: 32 :: b!"TJ")) = some (pieces fmt ps) := by
    unfold reShowArr
    rw [show reLit b!"[" (91 :: (pieces fmt ps ++ 93 :: 32 :: b!"TJ")) = some (pieces fmt ps ++ 93 :: 32 :: b!"TJ") from reLit_append b!"[" _,
      Option.bind_some, List.takeWhile_append_of_pos hc, List.dropWhile_append_of_pos hc, List.takeWhile_cons_of_neg (by decide),
      List.dropWhile_cons_of_neg (by decide), List.append_nil, if_neg hne]
    rw [show reLit b!"]" (93 :: 32 :: b!"TJ") = some (32 :: b!"TJ") by decide, Option.bind_some, sp1_cons (by decide)]
    simp [reLit, List.isPrefixOf]
  have e3 : textArray st.t.decoder (pieces fmt ps) = ps.flatMap (pieceOut st.t.decoder) := by
    unfold textArray
    have hs1 : (b!"[").isPrefixOf (pieces fmt ps) = false := by
      cases hq : pieces fmt ps with
      | nil => rfl
      | cons a r =>
        rw [hq] at g1
        simp only [List.head?_cons, Option.some.injEq] at g1
        subst g1
        exact prefix_head (Ne.symm g5) _ _
    have hs2 : (b!"]").isSuffixOf (pieces fmt ps) = false := by
      cases hq : (b!"]").isSuffixOf (pieces fmt ps) with
      | false => rfl
      | true =>
        obtain ⟨a, ha⟩ := List.isSuffixOf_iff_suffix.1 hq
        exact absurd (by rw [← ha]; simp) h93
    simp only [trim_id g1 g3 g2 g4, hs1, hs2, Bool.false_eq_true, if_false]
    exact scan_pieces H _ ps (fun s hs => (hp s hs).1)
  have h3 : showOps fl st (91 :: (pieces fmt ps ++ 93 :: 32 :: b!"TJ")) = some (sem fl val fonts st (.showTextArray ps)) := by
    unfold showOps
    rw [reShow_head (by decide), reShowHex_head (by decide), reShow_head (by decide), reShowHex_head (by decide), e2]
    simp only [Option.map_some, e3, sem]
    congr 2
  rw [h3]

include H in
theorem dashes_no93 (ds : List F) : (93 : UInt8) ∉ dashes fmt ds := by
  have hn : ∀ x, (93 : UInt8) ∉ fmt x := fun x hm => absurd ((H.num x).2 _ hm) (by decide)
  induction ds with
  | nil => simp [dashes]
  | cons x ds ih =>
    cases ds with
    | nil => exact hn x
    | cons y ds =>
      rw [dashes_cons]
      simp only [List.mem_append, not_or]
      exact ⟨⟨hn x, by decide⟩, ih⟩

include H in
theorem line_dash (ds : List F) (ph : F) : lineStep fl fonts st (render fmt (.lineDash ds ph)) = sem fl val fonts st (.lineDash ds ph) := by
  have e : render fmt (.lineDash ds ph : Call F) = 91 :: (dashes fmt ds ++ 93 :: 32 :: (fmt ph ++ b!" d")) := by simp [render, numList]
  have ht : Tight (91 :: (dashes fmt ds ++ 93 :: 32 :: (fmt ph ++ b!" d"))) := by
    have := tight_mid (a := b!"[") (m := dashes fmt ds ++ 93 :: 32 :: fmt ph) (b := b!" d") rfl (by decide) rfl (by decide)
    simpa using this
  have hc : ∀ x ∈ dashes fmt ds, decide (x ≠ 93) = true := by intro x hx; simp; rintro rfl; exact dashes_no93 H ds hx
  obtain ⟨h1, h2⟩ := H.num ph
  obtain ⟨c, r, hcr⟩ := List.exists_cons_of_ne_nil h1
  have hcn := h2 c (by rw [hcr]; simp)
  have e2 : reShowArr (91 :: (dashes fmt ds ++ 93 :: 32 :: (fmt ph ++ b!" d"))) = none := by
    unfold reShowArr
    rw [show reLit b!"[" (91 :: (dashes fmt ds ++ 93 :: 32 :: (fmt ph ++ b!" d"))) = some (dashes fmt ds ++ 93 :: 32 :: (fmt ph ++ b!" d")) from
      reLit_append b!"[" _, Option.bind_some, List.takeWhile_append_of_pos hc, List.dropWhile_append_of_pos hc,
      List.takeWhile_cons_of_neg (by decide), List.dropWhile_cons_of_neg (by decide)]
    split
    · rfl
    · rw [show reLit b!"]" (93 :: 32 :: (fmt ph ++ b!" d")) = some (32 :: (fmt ph ++ b!" d")) from reLit_append b!"]" _, Option.bind_some, hcr,
        List.cons_append, sp1_cons (num_not_space c hcn), Option.bind_some,
        show reLit b!"TJ" (c :: (r ++ b!" d")) = none from reLit_head (by rintro rfl; exact absurd hcn (by decide)) _ _]
      rfl
  rw [e, lineStep_tight fl fonts st ht, textOps_str fonts st _ (by decide) (by decide)]
  have h3 : showOps fl st (91 :: (dashes fmt ds ++ 93 :: 32 :: (fmt ph ++ b!" d"))) = none := by
    unfold showOps
    rw [reShow_head (by decide), reShowHex_head (by decide), reShow_head (by decide), reShowHex_head (by decide), e2]
    rfl
  rw [h3, graphicsOps_none fl st _ (reOp_head (by decide) _ _ _) (reOp_head (by decide) _ _ _) (reOp_head (by decide) _ _ _)
    (reOp_head (by decide) _ _ _) (reOp_head (by decide) _ _ _) (reOp_head (by decide) _ _ _) (reOp_head (by decide) _ _ _)
    (reDo_head (by decide) _) (prefix_head (by decide) _ _) (prefix_head (by decide) _ _) (by simp) (by simp)]
  rfl

/-! ### All calls -/

include H in
theorem line_call (c : Call F) (hc : CallOK c) : lineStep fl fonts st (render fmt c) = sem fl val fonts st c := by
  by_cases h1 : isNums c = true
  · exact line_nums H fonts st c h1
  by_cases h2 : isFixed c = true
  · exact line_fixed fonts st c h2
  cases c <;> simp only [isNums, isFixed, not_true_eq_false] at h1 h2
  case setFont n x => exact line_font H fonts st hc x
  case drawImage n => exact line_image fonts st hc
  case showText s => exact line_show fonts st hc.1 hc.2
  case showTextNextLine s => exact line_next fonts st hc.1 hc.2
  case showTextArray ps => exact line_array H fonts st hc.1 hc.2
  case showTextHex h => exact line_hex fonts st hc.1 hc.2
  case renderMode m => exact line_mode fonts st m
  case lineDash ds ph => exact line_dash H fonts st ds ph

include H in
theorem render_no_nl (c : Call F) (hc : CallOK c) : (10 : UInt8) ∉ render fmt c := by
  have hn : ∀ n : Bytes, NumText n → (10 : UInt8) ∉ n := fun n hn hm => absurd (hn.2 _ hm) (by decide)
  have hl : ∀ xs : List F, (10 : UInt8) ∉ numList fmt xs := by
    intro xs
    unfold numList
    simp only [List.mem_flatMap, List.mem_append, List.mem_singleton, not_exists, not_and, not_or]
    exact fun x _ => ⟨hn _ (H.num x), by decide⟩
  have hname : ∀ n, NameOK n → (10 : UInt8) ∉ n := by
    intro n hn hm
    obtain ⟨w, -, h⟩ := name_chars hn
    exact absurd (h 10 hm).1 (by decide)
  cases c <;> simp only [render, List.mem_append, not_or]
  case setFont n x => exact ⟨⟨⟨hname n hc, by decide⟩, hl _⟩, by decide⟩
  case drawImage n => exact ⟨hname n hc, by decide⟩
  case showText s => exact ⟨⟨by decide, (escape_not hc.1).1⟩, by decide⟩
  case showTextNextLine s => exact ⟨⟨by decide, (escape_not hc.1).1⟩, by decide⟩
  case showTextHex h =>
    refine ⟨⟨by decide, fun hm => ?_⟩, by decide⟩
    exact absurd (hc.2 10 hm (by decide)) (by decide)
  case showTextArray ps =>
    refine ⟨⟨by decide, ?_⟩, by decide⟩
    obtain ⟨-, hp⟩ := hc
    have h1 : ∀ p ∈ ps, (10 : UInt8) ∉ piece fmt p := by
      intro p hm
      cases p with
      | text s => simp [piece, (escape_not (hp s hm).1).1]
      | int n => exact hn _ (itoa_num n)
      | float x => exact hn _ (H.num x)
    clear hp
    induction ps with
    | nil => simp [pieces]
    | cons p ps ih =>
      have ih := ih (fun p hp => h1 p (List.mem_cons_of_mem _ hp))
      have hp := h1 p (by simp)
      cases ps with
      | nil => exact hp
      | cons p2 ps =>
        rw [pieces_cons]
        simp only [List.mem_append, not_or]
        exact ⟨⟨hp, by decide⟩, ih⟩
  case renderMode m => exact ⟨hn _ (itoa_num m), by decide⟩
  case lineDash ds ph =>
    refine ⟨⟨⟨⟨by decide, ?_⟩, by decide⟩, hl _⟩, by decide⟩
    induction ds with
    | nil => simp [dashes]
    | cons x ds ih =>
      cases ds with
      | nil => exact hn _ (H.num x)
      | cons y ds =>
        rw [dashes_cons]
        simp only [List.mem_append, not_or]
        exact ⟨⟨hn _ (H.num x), by decide⟩, ih trivial⟩
  all_goals first | exact ⟨hl _, by decide⟩ | decide

end

/-- Reading what was written is executing the calls. -/
theorem parse_render {fl : Floats F} {val : F → F} {fmt : F → Bytes} (H : Fmt fl val fmt) (fonts : Option (Map Bytes Decoder))
    (cs : List (Call F)) (hc : ∀ c ∈ cs, CallOK c) :
    parseContent fl fonts (renderAll fmt cs) = cs.foldl (sem fl val fonts) (State.init fl) := by
  unfold parseContent
  generalize State.init fl = st
  induction cs generalizing st with
  | nil => rfl
  | cons c cs ih =>
    have e : renderAll fmt (c :: cs) = render fmt c ++ 10 :: renderAll fmt cs := by simp [renderAll]
    have hk := hc c (by simp)
    rw [e, split_cons 10 _ _ (render_no_nl H c hk), List.foldl_cons, line_call H fonts st c hk, ih (fun c h => hc c (by simp [h]))]
    rfl

end Pdfer.Content
