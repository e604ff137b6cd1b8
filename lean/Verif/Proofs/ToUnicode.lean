import Verif.Proofs.HexText
import Verif.Proofs.KeyText

/-! Reading ToUnicode maps. -/

namespace Pdfer.Enc

open Pdfer.Go Pdfer.Strings Pdfer.Spec.Enc Pdfer.Font Pdfer.Forms Pdfer.Manipulate

/-! ### Tokens -/

/-- A token in angle brackets. -/
def tok (h : Bytes) : Bytes := b!"<" ++ h ++ b!">"

/-- Hexadecimal digits, at least one. -/
def HexStr (h : Bytes) : Prop := (∀ c ∈ h, isHex c = true) ∧ h ≠ []

theorem pad_hexStr (k n : Nat) : HexStr (hexPad k n) := ⟨fun c hc => ((hexPad_spec k n).1 c hc).2, (hexPad_spec k n).2.2⟩

theorem reHexTok_tok {h : Bytes} (hh : HexStr h) (s : Bytes) : reHexTok (tok h ++ s) = some (h, s) := by
  have e : tok h ++ s = b!"<" ++ (h ++ (b!">" ++ s)) := by simp [tok]
  have hd : ∀ c, (b!">" ++ s).head? = some c → isHex c = false := by
    intro c hc
    simp at hc
    subst hc
    decide +kernel
  rw [e, reHexTok, reLit_append, Option.bind_some, takeWhile_all hh.1 hd, if_neg hh.2, dropWhile_all hh.1 hd, reLit_append]
  rfl

theorem reHexTok_none {s : Bytes} (h : s.head? ≠ some 60) : reHexTok s = none := by
  rw [reHexTok]
  cases s with
  | nil => rfl
  | cons c s =>
    rw [reLit_ne (by rintro rfl; exact h rfl)]
    rfl

/-- White space only. -/
def White (w : Bytes) : Prop := ∀ c ∈ w, reSpace c = true

theorem sp0_white {w s : Bytes} (hw : White w) (hs : ∀ c, s.head? = some c → reSpace c = false) : reSp0 (w ++ s) = s :=
  dropWhile_all hw hs

theorem tok_head (h s : Bytes) : (tok h ++ s).head? = some 60 := by simp [tok]

theorem sp0_tok {w : Bytes} (hw : White w) (h s : Bytes) : reSp0 (w ++ (tok h ++ s)) = tok h ++ s := by
  apply sp0_white hw
  intro c hc
  rw [tok_head] at hc
  obtain rfl := Option.some.inj hc
  decide

theorem rePair_tok {a b w : Bytes} (ha : HexStr a) (hb : HexStr b) (hw : White w) (s : Bytes) :
    rePair (tok a ++ (w ++ (tok b ++ s))) = some ((a, b), s) := by
  rw [rePair, reHexTok_tok ha, Option.bind_some, sp0_tok hw, reHexTok_tok hb]
  rfl

/-- After a token, the next thing is not a token. -/
theorem rePair_none {a s : Bytes} (ha : HexStr a) (hs : (reSp0 s).head? ≠ some 60) : rePair (tok a ++ s) = none := by
  rw [rePair, reHexTok_tok ha, Option.bind_some, reHexTok_none hs]
  rfl

theorem rePair_head {s : Bytes} (h : s.head? ≠ some 60) : rePair s = none := by
  rw [rePair, reHexTok_none h]; rfl

theorem reTriple_head {s : Bytes} (h : s.head? ≠ some 60) : reTriple s = none := by
  rw [reTriple, rePair_head h]; rfl

theorem reRangeArr_head {s : Bytes} (h : s.head? ≠ some 60) : reRangeArr s = none := by
  rw [reRangeArr, rePair_head h]; rfl

/-- Text without an opening bracket is passed over. -/
theorem findAll_pass {α : Type} {p : Bytes → Option (α × Bytes)} (hp : ∀ s : Bytes, s.head? ≠ some 60 → p s = none) {x : Bytes}
    (hx : (60 : UInt8) ∉ x) (s : Bytes) : findAll p 0 (x ++ s) = findAll p 0 s := by
  induction x with
  | nil => rfl
  | cons c x ih =>
    rw [List.cons_append, findAll_miss (hp _ (by simp; rintro rfl; exact hx (by simp)))]
    exact ih (fun h => hx (by simp [h]))

theorem white_no_lt {w : Bytes} (hw : White w) : (60 : UInt8) ∉ w := fun h => absurd (hw _ h) (by decide)

theorem hex_no_lt {h : Bytes} (hh : HexStr h) : (60 : UInt8) ∉ h := fun hm => absurd (hh.1 _ hm) (by decide +kernel)

/-- A token at which the expression does not match is passed over. -/
theorem findAll_pass_tok {α : Type} {p : Bytes → Option (α × Bytes)} (hp : ∀ s : Bytes, s.head? ≠ some 60 → p s = none) {h : Bytes}
    (hh : HexStr h) {s : Bytes} (hn : p (tok h ++ s) = none) : findAll p 0 (tok h ++ s) = findAll p 0 s := by
  have e : tok h ++ s = 60 :: ((h ++ b!">") ++ s) := by simp [tok]
  rw [e] at hn ⊢
  rw [findAll_miss hn, findAll_pass hp]
  simp [hex_no_lt hh]

/-! ### What follows a line -/

/-- The rest of a section after a line: nothing, or white space and further lines. -/
def After (nl : Bytes) (l : List Bytes) : Bytes := if l = [] then [] else nl ++ joinWith nl l

theorem join_cons (nl a : Bytes) (l : List Bytes) : joinWith nl (a :: l) = a ++ After nl l := by
  cases l with
  | nil => simp [joinWith, After]
  | cons b l => simp [joinWith, After]

theorem findAll_after {α : Type} {p : Bytes → Option (α × Bytes)} (hp : ∀ s : Bytes, s.head? ≠ some 60 → p s = none) {nl : Bytes}
    (hw : White nl) (l : List Bytes) : findAll p 0 (After nl l) = findAll p 0 (joinWith nl l) := by
  rw [After]
  split
  · rename_i h; subst h; rfl
  · exact findAll_pass hp (white_no_lt hw) _

/-! ### Single codes -/

theorem findAll_chars {sp nl : Bytes} (hs : White sp) (hn : White nl) (l : List (Bytes × Bytes)) (h : ∀ p ∈ l, HexStr p.1 ∧ HexStr p.2) :
    findAll rePair 0 (joinWith nl (l.map fun p => tok p.1 ++ (sp ++ tok p.2))) = l := by
  induction l with
  | nil => rfl
  | cons p l ih =>
    obtain ⟨h1, h2⟩ := h p (by simp)
    rw [List.map_cons, join_cons]
    have e : (tok p.1 ++ (sp ++ tok p.2)) ++ After nl (l.map fun p => tok p.1 ++ (sp ++ tok p.2)) =
        tok p.1 ++ (sp ++ (tok p.2 ++ After nl (l.map fun p => tok p.1 ++ (sp ++ tok p.2)))) := by simp
    have := findAll_here (m := tok p.1 ++ (sp ++ tok p.2)) (rest := After nl (l.map fun p => tok p.1 ++ (sp ++ tok p.2)))
      (p := rePair) (r := p) (by simp [tok]) (by rw [e]; exact rePair_tok h1 h2 hs _)
    rw [this, findAll_after (fun s => rePair_head) hn, ih (fun q hq => h q (by simp [hq]))]

/-! ### Ranges -/

/-- An entry with its texts. -/
inductive RawEntry where
  | run (lo hi dst : Bytes)
  | one (lo hi u : Bytes)
  | two (lo hi u v : Bytes)

def RawEntry.ok : RawEntry → Prop
  | .run a b c => HexStr a ∧ HexStr b ∧ HexStr c
  | .one a b c => HexStr a ∧ HexStr b ∧ HexStr c
  | .two a b c d => HexStr a ∧ HexStr b ∧ HexStr c ∧ HexStr d

def RawEntry.text (sp : Bytes) : RawEntry → Bytes
  | .run a b c => tok a ++ (sp ++ (tok b ++ (sp ++ tok c)))
  | .one a b c => tok a ++ (sp ++ (tok b ++ (sp ++ (b!"[" ++ (tok c ++ b!"]")))))
  | .two a b c d => tok a ++ (sp ++ (tok b ++ (sp ++ (b!"[" ++ (tok c ++ (sp ++ (tok d ++ b!"]")))))))

/-- The matches of the expression for runs. -/
def RawEntry.run? : RawEntry → List (Bytes × Bytes × Bytes)
  | .run a b c => [(a, b, c)]
  | _ => []

/-- The matches of the expression for arrays. -/
def RawEntry.arr? (sp : Bytes) : RawEntry → List (Bytes × Bytes × Bytes)
  | .run _ _ _ => []
  | .one a b c => [(a, b, tok c)]
  | .two a b c d => [(a, b, tok c ++ (sp ++ tok d))]

theorem reTriple_tok {a b c sp : Bytes} (ha : HexStr a) (hb : HexStr b) (hc : HexStr c) (hs : White sp) (s : Bytes) :
    reTriple (tok a ++ (sp ++ (tok b ++ (sp ++ (tok c ++ s))))) = some ((a, b, c), s) := by
  rw [reTriple, rePair_tok ha hb hs, Option.bind_some, sp0_tok hs, reHexTok_tok hc]
  rfl

theorem sp0_head {sp s : Bytes} (hs : White sp) {c : UInt8} (hc : s.head? = some c) (h1 : reSpace c = false) (h2 : c ≠ 60) :
    (reSp0 (sp ++ s)).head? ≠ some 60 := by
  rw [sp0_white hs (by intro c' hc'; rw [hc] at hc'; obtain rfl := Option.some.inj hc'; exact h1), hc]
  simpa using h2

/-- Two tokens and something that is not a token. -/
theorem reTriple_none {a b sp s : Bytes} (ha : HexStr a) (hb : HexStr b) (hs : White sp) (h : (reSp0 s).head? ≠ some 60) :
    reTriple (tok a ++ (sp ++ (tok b ++ s))) = none := by
  rw [reTriple, rePair_tok ha hb hs, Option.bind_some, reHexTok_none h]
  rfl

theorem reTriple_none1 {a s : Bytes} (ha : HexStr a) (h : (reSp0 s).head? ≠ some 60) : reTriple (tok a ++ s) = none := by
  rw [reTriple, rePair_none ha h]; rfl

theorem findAll_triples {sp nl : Bytes} (hs : White sp) (hn : White nl) (l : List RawEntry) (h : ∀ e ∈ l, e.ok) :
    findAll reTriple 0 (joinWith nl (l.map (RawEntry.text sp))) = l.flatMap RawEntry.run? := by
  induction l with
  | nil => rfl
  | cons e l ih =>
    have ih := ih (fun q hq => h q (by simp [hq]))
    have ok := h e (by simp)
    rw [List.map_cons, join_cons, List.flatMap_cons, ← ih, ← findAll_after (fun s => reTriple_head) hn]
    generalize After nl (l.map (RawEntry.text sp)) = r
    have brk : ∀ s : Bytes, (reSp0 (sp ++ (b!"[" ++ s))).head? ≠ some 60 := fun s => sp0_head hs (c := 91) (by simp) (by decide) (by decide)
    have cls : ∀ s : Bytes, (reSp0 (b!"]" ++ s)).head? ≠ some 60 := fun s => sp0_head (sp := []) (by intro c hc; simp at hc) (c := 93) (by simp) (by decide) (by decide)
    cases e with
    | run a b c =>
      obtain ⟨ha, hb, hc⟩ := ok
      have eq : RawEntry.text sp (.run a b c) ++ r = tok a ++ (sp ++ (tok b ++ (sp ++ (tok c ++ r)))) := by simp [RawEntry.text]
      have := findAll_here (m := RawEntry.text sp (.run a b c)) (rest := r) (p := reTriple) (r := (a, b, c))
        (by simp [tok, RawEntry.text]) (by rw [eq]; exact reTriple_tok ha hb hc hs r)
      rw [this]
      rfl
    | one a b c =>
      obtain ⟨ha, hb, hc⟩ := ok
      simp only [RawEntry.text, RawEntry.run?, List.append_assoc, List.nil_append]
      rw [findAll_pass_tok (fun s => reTriple_head) ha (reTriple_none ha hb hs (brk _)), findAll_pass (fun s => reTriple_head) (white_no_lt hs),
        findAll_pass_tok (fun s => reTriple_head) hb (reTriple_none1 hb (brk _)), findAll_pass (fun s => reTriple_head) (white_no_lt hs),
        findAll_pass (fun s => reTriple_head) (by decide), findAll_pass_tok (fun s => reTriple_head) hc (reTriple_none1 hc (cls _)),
        findAll_pass (fun s => reTriple_head) (by decide)]
    | two a b c d =>
      obtain ⟨ha, hb, hc, hd⟩ := ok
      simp only [RawEntry.text, RawEntry.run?, List.append_assoc, List.nil_append]
      rw [findAll_pass_tok (fun s => reTriple_head) ha (reTriple_none ha hb hs (brk _)), findAll_pass (fun s => reTriple_head) (white_no_lt hs),
        findAll_pass_tok (fun s => reTriple_head) hb (reTriple_none1 hb (brk _)), findAll_pass (fun s => reTriple_head) (white_no_lt hs),
        findAll_pass (fun s => reTriple_head) (by decide), findAll_pass_tok (fun s => reTriple_head) hc (reTriple_none hc hd hs (cls _)),
        findAll_pass (fun s => reTriple_head) (white_no_lt hs),
        findAll_pass_tok (fun s => reTriple_head) hd (reTriple_none1 hd (cls _)), findAll_pass (fun s => reTriple_head) (by decide)]

/-! Arrays -/

theorem reRangeArr_none1 {a s : Bytes} (ha : HexStr a) (h : (reSp0 s).head? ≠ some 60) : reRangeArr (tok a ++ s) = none := by
  rw [reRangeArr, rePair_none ha h]; rfl

theorem reRangeArr_none {a b sp s : Bytes} (ha : HexStr a) (hb : HexStr b) (hs : White sp) (h : (reSp0 s).head? ≠ some 91) :
    reRangeArr (tok a ++ (sp ++ (tok b ++ s))) = none := by
  rw [reRangeArr, rePair_tok ha hb hs, Option.bind_some]
  cases he : reSp0 s with
  | nil => rfl
  | cons c t =>
    rw [he] at h
    rw [reLit_ne (by rintro rfl; exact h rfl)]
    rfl

theorem reRangeArr_tok {a b x sp : Bytes} (ha : HexStr a) (hb : HexStr b) (hs : White sp) (hx : x ≠ []) (h93 : (93 : UInt8) ∉ x) (s : Bytes) :
    reRangeArr (tok a ++ (sp ++ (tok b ++ (sp ++ (b!"[" ++ (x ++ (b!"]" ++ s))))))) = some ((a, b, x), s) := by
  have h1 : reSp0 (sp ++ (b!"[" ++ (x ++ (b!"]" ++ s)))) = b!"[" ++ (x ++ (b!"]" ++ s)) :=
    sp0_white hs (by intro c hc; simp at hc; subst hc; decide)
  have hw : ∀ c ∈ x, (fun c : UInt8 => decide (c ≠ 93)) c = true := by
    intro c hc; simp; rintro rfl; exact h93 hc
  have hh : ∀ c, (b!"]" ++ s).head? = some c → (fun c : UInt8 => decide (c ≠ 93)) c = false := by
    intro c hc; simp at hc; subst hc; decide
  rw [reRangeArr, rePair_tok ha hb hs, Option.bind_some, h1, reLit_append, Option.bind_some,
    takeWhile_all hw hh, dropWhile_all hw hh, if_neg hx, reLit_append]
  rfl

/-- The lines of a section start with two tokens. -/
theorem after_shape {sp nl : Bytes} (hn : White nl) (l : List RawEntry) (h : ∀ e ∈ l, e.ok) :
    reSp0 (After nl (l.map (RawEntry.text sp))) = [] ∨ ∃ a b s, HexStr a ∧ HexStr b ∧
      reSp0 (After nl (l.map (RawEntry.text sp))) = tok a ++ (sp ++ (tok b ++ s)) := by
  cases l with
  | nil => left; rfl
  | cons e l =>
    right
    have ok := h e (by simp)
    rw [After, if_neg (by simp), List.map_cons, join_cons]
    generalize After nl (l.map (RawEntry.text sp)) = r
    cases e with
    | run a b c =>
      refine ⟨a, b, sp ++ (tok c ++ r), ok.1, ok.2.1, ?_⟩
      simp only [RawEntry.text, List.append_assoc]
      exact sp0_tok hn _ _
    | one a b c =>
      refine ⟨a, b, sp ++ (b!"[" ++ (tok c ++ (b!"]" ++ r))), ok.1, ok.2.1, ?_⟩
      simp only [RawEntry.text, List.append_assoc]
      exact sp0_tok hn _ _
    | two a b c d =>
      refine ⟨a, b, sp ++ (b!"[" ++ (tok c ++ (sp ++ (tok d ++ (b!"]" ++ r))))), ok.1, ok.2.1, ?_⟩
      simp only [RawEntry.text, List.append_assoc]
      exact sp0_tok hn _ _

theorem tok_no93 {h : Bytes} (hh : HexStr h) : (93 : UInt8) ∉ tok h := by
  simp only [tok, List.mem_append, not_or]
  refine ⟨⟨by decide, fun hm => absurd (hh.1 _ hm) (by decide +kernel)⟩, by decide⟩

theorem findAll_arrays {sp nl : Bytes} (hs : White sp) (hn : White nl) (l : List RawEntry) (h : ∀ e ∈ l, e.ok) :
    findAll reRangeArr 0 (joinWith nl (l.map (RawEntry.text sp))) = l.flatMap (RawEntry.arr? sp) := by
  induction l with
  | nil => rfl
  | cons e l ih =>
    have hl : ∀ q ∈ l, q.ok := fun q hq => h q (by simp [hq])
    have ih := ih hl
    have ok := h e (by simp)
    have shape := after_shape (sp := sp) hn l hl
    rw [List.map_cons, join_cons, List.flatMap_cons, ← ih, ← findAll_after (fun s => reRangeArr_head) hn]
    generalize After nl (l.map (RawEntry.text sp)) = r at *
    cases e with
    | run a b c =>
      obtain ⟨ha, hb, hc⟩ := ok
      simp only [RawEntry.text, RawEntry.arr?, List.append_assoc, List.nil_append]
      have t1 : ∀ s : Bytes, (reSp0 (sp ++ (tok c ++ s))).head? ≠ some 91 := by
        intro s; rw [sp0_tok hs, tok_head]; decide
      have t2 : (reSp0 r).head? ≠ some 91 := by
        rcases shape with h | ⟨a, b, s, _, _, h⟩
        · rw [h]; simp
        · rw [h, tok_head]; decide
      have t3 : reRangeArr (tok c ++ r) = none := by
        rw [reRangeArr, rePair, reHexTok_tok hc, Option.bind_some]
        rcases shape with h | ⟨a', b', s, ha', hb', h⟩
        · rw [h]; rfl
        · rw [h, reHexTok_tok ha']
          simp only [Option.map_some, Option.bind_some]
          rw [sp0_tok hs, show tok b' ++ s = 60 :: (b' ++ b!">" ++ s) by simp [tok], reLit_ne (by decide)]
          rfl
      rw [findAll_pass_tok (fun s => reRangeArr_head) ha (reRangeArr_none ha hb hs (t1 _)), findAll_pass (fun s => reRangeArr_head) (white_no_lt hs),
        findAll_pass_tok (fun s => reRangeArr_head) hb (reRangeArr_none hb hc hs t2), findAll_pass (fun s => reRangeArr_head) (white_no_lt hs),
        findAll_pass_tok (fun s => reRangeArr_head) hc t3]
    | one a b c =>
      obtain ⟨ha, hb, hc⟩ := ok
      have := findAll_here (m := RawEntry.text sp (.one a b c)) (rest := r) (p := reRangeArr) (r := (a, b, tok c))
        (by simp [tok, RawEntry.text]) (by
          have := reRangeArr_tok (x := tok c) ha hb hs (by simp [tok]) (tok_no93 hc) r
          simpa only [RawEntry.text, List.append_assoc] using this)
      rw [this]
      rfl
    | two a b c d =>
      obtain ⟨ha, hb, hc, hd⟩ := ok
      have := findAll_here (m := RawEntry.text sp (.two a b c d)) (rest := r) (p := reRangeArr) (r := (a, b, tok c ++ (sp ++ tok d)))
        (by simp [tok, RawEntry.text]) (by
          have := reRangeArr_tok (x := tok c ++ (sp ++ tok d)) ha hb hs (by simp [tok]) (by
            simp only [List.mem_append, not_or]
            exact ⟨tok_no93 hc, fun hm => absurd (hs _ hm) (by decide), tok_no93 hd⟩) r
          simpa only [RawEntry.text, List.append_assoc] using this)
      rw [this]
      rfl

end Pdfer.Enc
