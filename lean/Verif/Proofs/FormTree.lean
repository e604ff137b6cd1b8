import Verif.Proofs.FieldText
import Verif.Proofs.Forms
import Verif.Proofs.Fill

/-! The recursion of the form parser over the field tree. -/

namespace Pdfer.Forms

open Pdfer.Go Pdfer.Strings Pdfer.Spec.Forms

theorem refsLoop_mono {go go' : Int → Int → Option (Option Field)} (h : ∀ n g x, go n g = some x → go' n g = some x) :
    ∀ (rs : List (Nat × Nat)) x, refsLoop go rs = some x → refsLoop go' rs = some x
  | [], x, hx => hx
  | r :: rs, x, hx => by
    rw [refsLoop] at hx ⊢
    cases hg : go r.1 r.2 with
    | none => rw [hg] at hx; cases hx
    | some f =>
      rw [hg] at hx
      rw [h _ _ _ hg]
      simp only [Option.map_eq_some_iff] at hx ⊢
      obtain ⟨fs, h1, h2⟩ := hx
      exact ⟨fs, refsLoop_mono h rs fs h1, h2⟩

theorem parseField_mono (get : Int → Option Bytes) : ∀ (fuel : Nat) (n g : Int) x, parseField get fuel n g = some x →
    parseField get (fuel + 1) n g = some x
  | 0, n, g, x, h => by cases h
  | fuel + 1, n, g, x, h => by
    rw [parseField] at h ⊢
    cases hs : get n with
    | none => rw [hs] at h; exact h
    | some s =>
      rw [hs] at h
      simp only [Option.map_eq_some_iff] at h ⊢
      obtain ⟨ks, h1, h2⟩ := h
      exact ⟨ks, refsLoop_mono (fun n g x => parseField_mono get fuel n g x) _ _ h1, h2⟩

theorem parseField_le (get : Int → Option Bytes) {fuel fuel' : Nat} (hle : fuel ≤ fuel') (n g : Int) (x : Option Field)
    (h : parseField get fuel n g = some x) : parseField get fuel' n g = some x := by
  induction hle with
  | refl => exact h
  | step _ ih => exact parseField_mono get _ n g x ih

theorem refsLoop_isSome {go : Int → Int → Option (Option Field)} (rs : List (Nat × Nat)) :
    (refsLoop go rs).isSome = true ↔ ∀ r ∈ rs, (go r.1 r.2).isSome = true := by
  induction rs with
  | nil => simp [refsLoop]
  | cons r rs ih =>
    rw [refsLoop, List.forall_mem_cons]
    cases hg : go r.1 r.2 with
    | none => simp
    | some f => simp [ih]

theorem parseField_isSome_le (get : Int → Option Bytes) {fuel fuel' : Nat} (hle : fuel ≤ fuel') (n g : Int)
    (h : (parseField get fuel n g).isSome = true) : (parseField get fuel' n g).isSome = true := by
  obtain ⟨x, hx⟩ := Option.isSome_iff_exists.1 h
  rw [parseField_le get hle n g x hx]; rfl

/-- A fuel that serves a whole list of references. -/
theorem common_fuel (get : Int → Option Bytes) (rs : List (Nat × Nat))
    (h : ∀ r ∈ rs, ∃ fuel, (parseField get fuel r.1 r.2).isSome = true) :
    ∃ fuel, ∀ r ∈ rs, (parseField get fuel r.1 r.2).isSome = true := by
  induction rs with
  | nil => exact ⟨0, by simp⟩
  | cons r rs ih =>
    obtain ⟨f1, h1⟩ := h r (by simp)
    obtain ⟨f2, h2⟩ := ih (fun q hq => h q (by simp [hq]))
    refine ⟨max f1 f2, fun q hq => ?_⟩
    rcases List.mem_cons.1 hq with rfl | hq
    · exact parseField_isSome_le get (Nat.le_max_left _ _) _ _ h1
    · exact parseField_isSome_le get (Nat.le_max_right _ _) _ _ (h2 q hq)

theorem parseField_acc (get : Int → Option Bytes) (n : Int) (h : Acc (KidOf get) n) :
    ∀ g, ∃ fuel, (parseField get fuel n g).isSome = true := by
  induction h with
  | intro n _ ih =>
    intro g
    cases hs : get n with
    | none => exact ⟨1, by simp [parseField, hs]⟩
    | some s =>
      obtain ⟨fuel, hf⟩ := common_fuel get (arrayRefs b!"/Kids" s) (fun r hr => ih r.1 ⟨s, hs, r, hr, rfl⟩ r.2)
      refine ⟨fuel + 1, ?_⟩
      rw [parseField, hs]
      simp only [Option.isSome_map]
      exact (refsLoop_isSome _).2 hf

theorem acc_parseField (get : Int → Option Bytes) : ∀ (fuel : Nat) (n g : Int),
    (parseField get fuel n g).isSome = true → Acc (KidOf get) n
  | 0, n, g, h => by cases h
  | fuel + 1, n, g, h => by
    refine ⟨n, fun m hm => ?_⟩
    obtain ⟨s, hs, r, hr, rfl⟩ := hm
    rw [parseField, hs] at h
    simp only [Option.isSome_map] at h
    exact acc_parseField get fuel _ _ ((refsLoop_isSome _).1 h r hr)

theorem refsLoop_mem {go : Int → Int → Option (Option Field)} : ∀ (rs : List (Nat × Nat)) (fs : List Field),
    refsLoop go rs = some fs → ∀ f, f ∈ fs ↔ ∃ r ∈ rs, go r.1 r.2 = some (some f)
  | [], fs, h, f => by
    simp only [refsLoop, Option.some.injEq] at h
    subst h; simp
  | r :: rs, fs, h, f => by
    rw [refsLoop] at h
    cases hg : go r.1 r.2 with
    | none => rw [hg] at h; cases h
    | some x =>
      rw [hg] at h
      simp only [Option.map_eq_some_iff] at h
      obtain ⟨ks, h1, h2⟩ := h
      have ih := refsLoop_mem rs ks h1 f
      cases x with
      | none => simp at h2; subst h2; rw [ih]; simp [hg]
      | some x =>
        simp at h2; subst h2
        simp only [List.mem_cons, ih, exists_eq_or_imp, hg, Option.some.injEq]
        constructor
        · rintro (rfl | h)
          · exact Or.inl rfl
          · exact Or.inr h
        · rintro (rfl | h)
          · exact Or.inl rfl
          · exact Or.inr h

theorem parseField_some {get : Int → Option Bytes} {fuel : Nat} {n g : Int} {f : Field}
    (h : parseField get (fuel + 1) n g = some (some f)) :
    ∃ s ks, get n = some s ∧ refsLoop (parseField get fuel) (arrayRefs b!"/Kids" s) = some ks ∧ f = .mk (parseAttrs n g s) ks := by
  rw [parseField] at h
  cases hs : get n with
  | none => rw [hs] at h; cases h
  | some s =>
    rw [hs] at h
    simp only [Option.map_eq_some_iff, Option.some.injEq] at h
    obtain ⟨ks, h1, h2⟩ := h
    exact ⟨s, ks, rfl, h1, h2.symm⟩

theorem parseField_none {get : Int → Option Bytes} {fuel : Nat} {n g : Int}
    (h : parseField get fuel n g = some none) : get n = none := by
  cases fuel with
  | zero => cases h
  | succ fuel =>
    rw [parseField] at h
    cases hs : get n with
    | none => rfl
    | some s =>
      rw [hs] at h
      simp at h

theorem tree_below {get : Int → Option Bytes} : ∀ (fuel : Nat) (n g : Int) (f : Field),
    parseField get fuel n g = some (some f) → ∀ k, InTree f k →
      Below get n k.attrs.num ∧ ∃ s, get k.attrs.num = some s ∧ k.attrs = parseAttrs k.attrs.num k.attrs.gen s
  | 0, n, g, f, h, k, _ => by cases h
  | fuel + 1, n, g, f, h, k, hk => by
    obtain ⟨s, ks, h1, h2, rfl⟩ := parseField_some h
    cases hk with
    | self => exact ⟨.self (by rw [h1]; rfl), s, h1, rfl⟩
    | kid hg hk =>
      obtain ⟨r, hr, he⟩ := (refsLoop_mem _ _ h2 _).1 hg
      obtain ⟨i1, i2⟩ := tree_below fuel _ _ _ he k hk
      exact ⟨.kid ⟨s, h1, r, hr, rfl⟩ i1, i2⟩

theorem below_tree {get : Int → Option Bytes} {n m : Int} (hb : Below get n m) : ∀ (fuel : Nat) (g : Int) (f : Field),
    parseField get fuel n g = some (some f) → ∃ k, InTree f k ∧ k.attrs.num = m := by
  induction hb with
  | self hn =>
    intro fuel g f h
    cases fuel with
    | zero => cases h
    | succ fuel =>
      obtain ⟨s, ks, h1, h2, rfl⟩ := parseField_some h
      exact ⟨_, .self, rfl⟩
  | kid hk hb ih =>
    rename_i n k m
    intro fuel g f h
    cases fuel with
    | zero => cases h
    | succ fuel =>
      obtain ⟨s, ks, h1, h2, rfl⟩ := parseField_some h
      obtain ⟨s', hs', r, hr, rfl⟩ := hk
      rw [h1] at hs'; cases hs'
      have hsome : (refsLoop (parseField get fuel) (arrayRefs b!"/Kids" s)).isSome = true := by rw [h2]; rfl
      obtain ⟨x, hx⟩ := Option.isSome_iff_exists.1 ((refsLoop_isSome _).1 hsome r hr)
      cases x with
      | none =>
        exfalso
        have hr' := parseField_none hx
        cases hb with
        | self h => rw [hr'] at h; cases h
        | kid h _ => obtain ⟨s'', h'', _⟩ := h; rw [hr'] at h''; cases h''
      | some x =>
        obtain ⟨k', hk1, hk2⟩ := ih fuel _ _ hx
        exact ⟨k', .kid ((refsLoop_mem _ _ h2 _).2 ⟨r, hr, hx⟩) hk1, hk2⟩

/-! ### The form dictionary written by the builder -/

theorem reRef2_here (n : Nat) (rest : Bytes) (hn : n < 2 ^ 63) :
    reRef2 (Writer.ref n ++ rest) = some ((n, 0), rest) := by
  have e : Writer.ref n ++ rest = natDec n ++ (32 :: (natDec 0 ++ (32 :: (b!"R" ++ rest)))) := by
    rw [show natDec 0 = b!"0" from by decide, Writer.ref, show itoa (n : Int) = natDec n from rfl]; simp
  have h32 : ∀ t : Bytes, ∀ c, ((32 : UInt8) :: t).head? = some c → isDigit c = false := by
    intro t c hc; simp at hc; subst hc; decide
  rw [e, reRef2, reNum_natDec (h32 _)]
  simp only [Option.bind_some]
  rw [reSp1_one (fun c hc => isDigit_not_reSpace (natDec_head _ _ c hc))]
  simp only [Option.bind_some]
  rw [reNum_natDec (h32 _)]
  simp only [Option.bind_some]
  rw [reSp1_one (by intro c hc; simp at hc; subst hc; decide)]
  simp only [Option.bind_some]
  rw [reLit_append, atoiClamp_natDec n (by omega), atoiClamp_natDec 0 (by omega)]
  rfl

theorem ref_ne (n : Int) : Writer.ref n ≠ [] := by simp [Writer.ref]

theorem reRef2_space (s : Bytes) : reRef2 (32 :: s) = none := by
  simp [reRef2, reNum, isDigit]

theorem findAll_refs (nums : List Nat) (h : ∀ n ∈ nums, n < 2 ^ 63) :
    findAll reRef2 0 (Writer.joinSp (nums.map fun n : Nat => Writer.ref n)) = nums.map fun n => (n, 0) := by
  induction nums with
  | nil => rfl
  | cons n ns ih =>
    cases ns with
    | nil =>
      have := findAll_here (ref_ne n) (reRef2_here n [] (h n (by simp)))
      simpa [Writer.joinSp, findAll] using this
    | cons m ms =>
      have e : Writer.joinSp ((n :: m :: ms).map fun n : Nat => Writer.ref n) =
          Writer.ref n ++ (32 :: Writer.joinSp ((m :: ms).map fun n : Nat => Writer.ref n)) := by
        simp [Writer.joinSp]
      rw [e, findAll_here (ref_ne n) (reRef2_here n _ (h n (by simp))), findAll_miss (reRef2_space _),
        ih (fun k hk => h k (by simp [hk]))]
      rfl

theorem refs_free {d : UInt8} (hd : isDigit d = false) (h32 : d ≠ 32) (hR : d ≠ 82) (nums : List Nat) :
    d ∉ Writer.joinSp (nums.map fun n : Nat => Writer.ref n) := by
  have h1 : ∀ n : Nat, d ∉ Writer.ref n := by
    intro n
    rw [Writer.ref, show itoa (n : Int) = natDec n from rfl]
    simp only [List.mem_append, not_or]
    refine ⟨not_mem_natDec hd n, ?_⟩
    intro hm
    have h48 : d ≠ 48 := by rintro rfl; exact absurd hd (by decide)
    simp [h32, h48, hR] at hm
  induction nums with
  | nil => simp [Writer.joinSp]
  | cons n ns ih =>
    cases ns with
    | nil => simpa [Writer.joinSp] using h1 n
    | cons m ms =>
      have e : Writer.joinSp ((n :: m :: ms).map fun n : Nat => Writer.ref n) =
          Writer.ref n ++ (32 :: Writer.joinSp ((m :: ms).map fun n : Nat => Writer.ref n)) := by
        simp [Writer.joinSp]
      rw [e]
      simp only [List.mem_append, List.mem_cons, not_or]
      exact ⟨h1 n, h32, ih⟩

theorem form_refs (nums : List Nat) (h : ∀ n ∈ nums, n < 2 ^ 63) (pre post : Bytes) (hpre : (47 : UInt8) ∉ pre) :
    searchWith (reKeyArr b!"/Fields") (pre ++ formText (nums.map fun n : Nat => (n : Int)) ++ post) =
      some (Writer.joinSp (nums.map fun n : Nat => Writer.ref n)) := by
  have e : pre ++ formText (nums.map fun n : Nat => (n : Int)) ++ post =
      (pre ++ b!"<< ") ++ (47 :: (b!"Fields" ++ 32 :: (b!"[" ++ Writer.joinSp (nums.map fun n : Nat => Writer.ref n) ++ b!"]")) ++
        (b!" /NeedAppearances true >>" ++ post)) := by
    simp [formText, List.map_map, Function.comp_def]
  rw [e, (keyRe_arr b!"Fields").skip (by simp [hpre])]
  apply searchWith_here
  exact reKeyArr_here _ _ _ (refs_free (by decide) (by decide) (by decide) nums)

/-- A field text without slashes around it has no /Kids. -/
theorem field_no_kids (f : FieldDef) (hf : PlainField f) (pre post : Bytes) (hpre : (47 : UInt8) ∉ pre)
    (hpost : (47 : UInt8) ∉ post) : arrayRefs b!"/Kids" (pre ++ fieldText f ++ post) = [] := by
  have K := keyRe_arr b!"Kids"
  have : searchWith (reKeyArr b!"/Kids") (pre ++ fieldText f ++ post) = none := by
    rw [fieldText_parts, escape_plain _ hf.name, escape_plain _ (shown_plain hf.value), escape_plain _ (shown_plain hf.dflt)]
    have hend : (47 : UInt8) ∉ b!" >>" ++ post := by simp [hpost]
    have b7 : (47 : UInt8) ∉ b!"[" ++ optionTexts f.options ++ b!"]" := by
      have := options_free (d := 47) ⟨by decide, by decide, by decide, fun h => h.2.2.2.2.1 rfl⟩ f.options hf.options
      simp [this]
    have bp : ∀ v : Bytes, (∀ c ∈ v, PlainChar c) → (47 : UInt8) ∉ b!"(" ++ v ++ b!")" := fun v hv => by
      simp [plain47 hv]
    have bn : ∀ n : Nat, (47 : UInt8) ∉ natDec n := fun n => not_mem_natDec (c := 47) (by decide) n
    have br : (47 : UInt8) ∉ b!"[" ++ f.rect ++ b!"]" := by simp [plain47 hf.rect]
    have tail : ∀ s, searchWith (reKeyArr b!"/Kids") s = none → ∀ r, s = 32 :: r →
        searchWith (reKeyArr b!"/Kids") (pre ++ (b!"<< /FT /" ++ (f.type ++ s))) = none := by
      intro s hs r hr
      rw [skipHead K hpre (by decide) (by decide) (type_free hf.type) (K _ (type_other hf.type (by decide) (by decide) ⟨r, hr⟩))]
      exact hs
    have ass : ∀ (a b c d : Bytes), a ++ (b ++ c) ++ d = a ++ (b ++ (c ++ d)) := by intros; simp
    rw [List.append_assoc, List.append_assoc, List.append_assoc]
    simp only [List.append_assoc _ _ post]
    obtain ⟨r, hr⟩ := part_space (c := f.name ≠ []) (k := b!"T") (b := b!"(" ++ f.name ++ b!")")
      (part_space (c := f.rect ≠ []) (k := b!"Rect") (b := b!"[" ++ f.rect ++ b!"]")
      (part_space (c := f.flags ≠ 0) (k := b!"Ff") (b := natDec f.flags)
      (part_space (c := f.value ≠ .nil) (k := b!"V") (b := b!"(" ++ shown f.value f.type ++ b!")")
      (part_space (c := f.dflt ≠ .nil) (k := b!"DV") (b := b!"(" ++ shown f.dflt f.type ++ b!")")
      (part_space (c := f.maxLen > 0) (k := b!"MaxLen") (b := natDec f.maxLen)
      (part_space (c := f.options ≠ []) (k := b!"Opt") (b := b!"[" ++ optionTexts f.options ++ b!"]")
        (s := b!" >>" ++ post) ⟨_, rfl⟩))))))
    refine tail _ ?_ r hr
    rw [K.skipPart _ (by decide) (by decide) (by decide) (bp _ hf.name), K.skipPart _ (by decide) (by decide) (by decide) br,
      K.skipPart _ (by decide) (by decide) (by decide) (bn _), K.skipPart _ (by decide) (by decide) (by decide) (bp _ (shown_plain hf.value)),
      K.skipPart _ (by decide) (by decide) (by decide) (bp _ (shown_plain hf.dflt)), K.skipPart _ (by decide) (by decide) (by decide) (bn _),
      K.skipPart _ (by decide) (by decide) (by decide) b7]
    exact K.none hend
  rw [arrayRefs, this]; rfl

/-- What the builder makes of a form, field by field. -/
theorem build_parsed (get : Int → Option Bytes) (fuel : Nat) (fs : List (Nat × FieldDef)) (pre post : Nat → Bytes)
    (hpre : ∀ n, (47 : UInt8) ∉ pre n) (hpost : ∀ n, (47 : UInt8) ∉ post n)
    (hf : ∀ e ∈ fs, PlainField e.2 ∧ get e.1 = some (pre e.1 ++ fieldText e.2 ++ post e.1)) :
    refsLoop (parseField get (fuel + 1)) (fs.map fun e => (e.1, 0)) =
      some (fs.map fun e => .mk (parseAttrs e.1 0 (fieldText e.2)) []) := by
  induction fs with
  | nil => rfl
  | cons e es ih =>
    obtain ⟨h1, h2⟩ := hf e (by simp)
    have hk := field_no_kids e.2 h1 (pre e.1) (post e.1) (hpre _) (hpost _)
    have hp : parseAttrs e.1 0 (pre e.1 ++ fieldText e.2 ++ post e.1) = parseAttrs e.1 0 (fieldText e.2) := by
      rw [parse_field _ h1 _ _ _ _ (hpre _) (hpost _)]
      have := parse_field _ h1 (e.1 : Int) 0 [] [] (by simp) (by simp)
      simp only [List.nil_append, List.append_nil] at this
      rw [this]
    have h0 : parseField get (fuel + 1) e.1 ((0 : Nat) : Int) = some (some (.mk (parseAttrs e.1 0 (fieldText e.2)) [])) := by
      rw [parseField, h2]
      simp only [hk, refsLoop, Option.map_some]
      rw [← hp]; rfl
    rw [List.map_cons, refsLoop, h0, ih (fun x hx => hf x (by simp [hx]))]
    rfl

end Pdfer.Forms
