import Verif.Proofs.Delete

/-! Merging: numbering and references. -/

namespace Pdfer.Manipulate

open Pdfer.Go Pdfer.Incremental Pdfer.Spec.Manipulate

/-! ### The shape of a reference -/

theorem reSp1_some {s t : Bytes} (h : reSp1 s = some t) :
    ∃ w, w ≠ [] ∧ (∀ c ∈ w, reSpace c = true) ∧ s = w ++ t ∧ ∀ c, t.head? = some c → reSpace c = false := by
  cases s with
  | nil => simp [reSp1] at h
  | cons c r =>
    simp only [reSp1] at h
    split at h
    · rename_i hc
      simp at h
      refine ⟨c :: r.takeWhile reSpace, by simp, ?_, ?_, ?_⟩
      · intro x hx
        rcases List.mem_cons.1 hx with rfl | hx
        · exact hc
        · exact (List.all_eq_true.1 (List.all_takeWhile (l := r) (p := reSpace))) x hx
      · rw [← h]; simp
      · intro x hx
        rw [← h] at hx
        have := List.head?_dropWhile_not reSpace r
        rw [hx] at this
        simpa using this
    · simp at h

theorem reNum_some {s d t : Bytes} (h : reNum s = some (d, t)) :
    d ≠ [] ∧ (∀ c ∈ d, isDigit c = true) ∧ s = d ++ t ∧ ∀ c, t.head? = some c → isDigit c = false := by
  unfold reNum at h
  split at h
  · simp at h
  · rename_i hne
    simp at h
    refine ⟨by rw [← h.1]; exact hne, ?_, by rw [← h.1, ← h.2]; simp, ?_⟩
    · intro c hc
      rw [← h.1] at hc
      exact (List.all_eq_true.1 (List.all_takeWhile (l := s) (p := isDigit))) c hc
    · intro c hc
      rw [← h.2] at hc
      have := List.head?_dropWhile_not isDigit s
      rw [hc] at this
      simpa using this

theorem reRef_some {s d1 r : Bytes} (h : reRef s = some (d1, r)) :
    ∃ w1 d2 w2, d1 ≠ [] ∧ (∀ c ∈ d1, isDigit c = true) ∧ w1 ≠ [] ∧ (∀ c ∈ w1, reSpace c = true) ∧
      d2 ≠ [] ∧ (∀ c ∈ d2, isDigit c = true) ∧ w2 ≠ [] ∧ (∀ c ∈ w2, reSpace c = true) ∧
      s = d1 ++ (w1 ++ (d2 ++ (w2 ++ (82 :: r)))) := by
  unfold reRef at h
  cases h1 : reNum s with
  | none => rw [h1] at h; simp at h
  | some p =>
    rw [h1, Option.bind_some] at h
    cases h2 : reSp1 p.2 with
    | none => rw [h2] at h; simp at h
    | some s2 =>
      rw [h2, Option.bind_some] at h
      cases h3 : reNum s2 with
      | none => rw [h3] at h; simp at h
      | some q =>
        rw [h3, Option.bind_some] at h
        cases h4 : reSp1 q.2 with
        | none => rw [h4] at h; simp at h
        | some s4 =>
          rw [h4, Option.bind_some] at h
          cases h5 : reLit b!"R" s4 with
          | none => rw [h5] at h; simp at h
          | some s5 =>
            rw [h5] at h
            simp at h
            obtain ⟨p1, p2⟩ := p
            obtain ⟨q1, q2⟩ := q
            obtain ⟨a1, a2, a3, -⟩ := reNum_some h1
            obtain ⟨w1, b1, b2, b3, -⟩ := reSp1_some h2
            obtain ⟨c1, c2, c3, -⟩ := reNum_some h3
            obtain ⟨w2, e1, e2, e3, -⟩ := reSp1_some h4
            have f := reLit_some h5
            simp only at h b3 e3
            refine ⟨w1, q1, w2, ?_, ?_, b1, b2, c1, c2, e1, e2, ?_⟩
            · rw [← h.1]; exact a1
            · rw [← h.1]; exact a2
            · rw [a3, b3, c3, e3, f, ← h.1, ← h.2]; rfl

/-- What follows a plain piece: nothing, or a reference. -/
def NextOk (t : Bytes) : Prop := t = [] ∨ ∃ n rest, t = refText n ++ rest

/-- Inside plain text nothing is mistaken for a reference. -/
theorem reRef_plain {u next : Bytes} (hu : u ≠ []) (hlast : ∀ c, u.getLast? = some c → ¬ (48 ≤ c ∧ c ≤ 57))
    (hR : ∀ a c b, u = a ++ c :: 82 :: b → ¬ White c) (hn : NextOk next) : reRef (u ++ next) = none := by
  apply Classical.byContradiction
  intro hne
  obtain ⟨⟨d1, r⟩, h⟩ := Option.ne_none_iff_exists'.1 hne
  obtain ⟨w1, d2, w2, hd1, hd1', hw1, hw1', hd2, hd2', hw2, hw2', e⟩ := reRef_some h
  have dig : ∀ {c : UInt8}, isDigit c = true ↔ (48 ≤ c ∧ c ≤ 57) := by
    intro c; simp [isDigit]
  -- no digit at the end of `u`
  have hend : ∀ a d : Bytes, d ≠ [] → (∀ c ∈ d, isDigit c = true) → u ≠ a ++ d := by
    intro a d hd hd' hu'
    have hl := List.getLast?_eq_some_getLast hd
    apply hlast (d.getLast hd)
    · rw [hu', List.getLast?_append, hl]; rfl
    · exact dig.1 (hd' _ (List.getLast_mem hd))
  -- a white-space byte before an `R` inside `u` is impossible
  have hin : ∀ a b : Bytes, u ≠ a ++ (w2 ++ (82 :: b)) := by
    intro a b hu'
    have hl : w2 = w2.dropLast ++ [w2.getLast hw2] := (List.dropLast_concat_getLast hw2).symm
    apply hR (a ++ w2.dropLast) (w2.getLast hw2) b
    · rw [hu']
      conv => lhs; rw [hl]
      simp
    · exact white_reSpace.2 (hw2' _ (List.getLast_mem hw2))
  have headNext : ∀ c, next.head? = some c → isDigit c = true := by
    intro c hc
    rcases hn with rfl | ⟨n, rest, rfl⟩
    · simp at hc
    · rw [refText, List.append_assoc] at hc
      exact natDec_head n _ c hc
  have spDig : ∀ {c : UInt8}, reSpace c = true → isDigit c = true → False := by
    intro c h1 h2
    rw [isDigit_not_reSpace h2] at h1; simp at h1
  rcases List.append_eq_append_iff.1 e with ⟨x, hx1, hx2⟩ | ⟨x, hx1, hx2⟩
  · -- `u` ends inside the first number
    cases x with
    | nil => exact hend [] d1 hd1 hd1' (by simpa using hx1.symm)
    | cons y x =>
      have : u ≠ [] ∧ ∀ c ∈ u, isDigit c = true := ⟨hu, fun c hc => hd1' c (by rw [hx1]; simp [hc])⟩
      exact hend [] u this.1 this.2 (by simp)
  · rcases List.append_eq_append_iff.1 hx2.symm with ⟨y, hy1, hy2⟩ | ⟨y, hy1, hy2⟩
    · -- `u` ends inside the first white space
      cases x with
      | nil => exact hend [] d1 hd1 hd1' (by simpa using hx1)
      | cons x0 x =>
        cases y with
        | cons y0 y =>
          have h0 : isDigit y0 = true := headNext y0 (by rw [hy2]; rfl)
          exact spDig (hw1' y0 (by rw [hy1]; simp)) h0
        | nil =>
          -- the first white space ends exactly where `next` starts
          simp only [List.nil_append] at hy2
          rcases hn with hn | ⟨n, rest, hn⟩
          · rw [hn] at hy2
            have := congrArg List.length hy2
            simp at this
          · have e2 : natDec n ++ (32 :: (48 :: (32 :: (82 :: rest)))) = d2 ++ (w2 ++ (82 :: r)) := by
              rw [← hy2, hn]; simp [refText]
            have t1 := (takeWhile_digits (ds := natDec n) (s := 32 :: (48 :: (32 :: (82 :: rest)))) (natDec_digits n)
              (by intro c hc; simp at hc; subst hc; decide)).2
            have t2 := (takeWhile_digits (ds := d2) (s := w2 ++ (82 :: r)) hd2' (by
              intro c hc
              cases w2 with
              | nil => exact absurd rfl hw2
              | cons z w2 =>
                simp at hc; subst hc
                cases hz : isDigit z with
                | false => rfl
                | true => exact (spDig (hw2' z (by simp)) hz).elim)).2
            rw [e2, t2] at t1
            cases w2 with
            | nil => exact absurd rfl hw2
            | cons z w2 =>
              simp only [List.cons_append] at t1
              injection t1 with _ t1
              cases w2 with
              | nil => simp at t1
              | cons z2 w2 =>
                simp only [List.cons_append] at t1
                injection t1 with t1 _
                have := hw2' z2 (by simp)
                rw [t1] at this
                simp [reSpace] at this
    · rcases List.append_eq_append_iff.1 hy2.symm with ⟨z, hz1, hz2⟩ | ⟨z, hz1, hz2⟩
      · -- `u` ends inside the second number
        cases y with
        | nil =>
          rw [List.append_nil] at hy1
          -- `u` ends with the white space; `next` starts with the second number: as before
          simp only [List.nil_append] at hz1
          subst hz1
          rcases hn with hn | ⟨n, rest, hn⟩
          · rw [hn] at hz2
            have := congrArg List.length hz2
            simp at this
          · have e2 : natDec n ++ (32 :: (48 :: (32 :: (82 :: rest)))) = d2 ++ (w2 ++ (82 :: r)) := by
              rw [← hz2, hn]; simp [refText]
            have t1 := (takeWhile_digits (ds := natDec n) (s := 32 :: (48 :: (32 :: (82 :: rest)))) (natDec_digits n)
              (by intro c hc; simp at hc; subst hc; decide)).2
            have t2 := (takeWhile_digits (ds := d2) (s := w2 ++ (82 :: r)) hd2' (by
              intro c hc
              cases w2 with
              | nil => exact absurd rfl hw2
              | cons z w2 =>
                simp at hc; subst hc
                cases hz : isDigit z with
                | false => rfl
                | true => exact (spDig (hw2' z (by simp)) hz).elim)).2
            rw [e2, t2] at t1
            cases w2 with
            | nil => exact absurd rfl hw2
            | cons z w2 =>
              simp only [List.cons_append] at t1
              injection t1 with _ t1
              cases w2 with
              | nil => simp at t1
              | cons z2 w2 =>
                simp only [List.cons_append] at t1
                injection t1 with t1 _
                have := hw2' z2 (by simp)
                rw [t1] at this
                simp [reSpace] at this
        | cons y0 y =>
          exact hend (d1 ++ w1) (y0 :: y) (by simp) (fun c hc => hd2' c (by rw [hz1]; simp at hc ⊢; rcases hc with h | h <;> simp [h]))
            (by rw [hx1, hy1]; simp)
      · rcases List.append_eq_append_iff.1 hz2.symm with ⟨v, hv1, hv2⟩ | ⟨v, hv1, hv2⟩
        · -- `u` ends inside the second white space
          cases z with
          | nil => exact hend (d1 ++ w1) d2 hd2 hd2' (by rw [hx1, hy1, hz1]; simp)
          | cons z0 z =>
            cases v with
            | cons v0 v =>
              exact spDig (hw2' v0 (by rw [hv1]; simp)) (headNext v0 (by rw [hv2]; rfl))
            | nil =>
              have := headNext 82 (by rw [hv2]; rfl)
              simp [isDigit] at this
        · cases v with
          | nil =>
            simp only [List.nil_append] at hv2
            have := headNext 82 (by rw [← hv2]; rfl)
            simp [isDigit] at this
          | cons v0 v =>
            simp only [List.cons_append] at hv2
            injection hv2 with h82 hv2
            apply hin (d1 ++ (w1 ++ d2)) v
            rw [hx1, hy1, hz1, hv1, ← h82]
            simp

/-! ### Renumbering references -/

theorem replaceRe_plain {rep : Bytes → Bytes} {t next : Bytes} (ht : PlainText t) (hn : NextOk next) :
    replaceRe (fun t => (reRef t).map (·.2)) rep 0 (t ++ next) =
      t ++ replaceRe (fun t => (reRef t).map (·.2)) rep 0 next := by
  induction t with
  | nil => rfl
  | cons c t ih =>
    have h0 : reRef (c :: t ++ next) = none := reRef_plain (by simp) ht.1 ht.2 hn
    rw [List.cons_append] at h0 ⊢
    rw [replaceRe, h0]
    simp only [Option.map_none]
    rw [ih]
    · rfl
    · constructor
      · intro d hd
        apply ht.1 d
        cases t with
        | nil => simp at hd
        | cons e t => simpa using hd
      · intro a d b e
        exact ht.2 (c :: a) d b (by rw [e]; rfl)

theorem wellFormed_next {t : Bytes} {ps : List Piece} (h : WellFormed (.plain t :: ps)) :
    PlainText t ∧ WellFormed ps ∧ NextOk (textOf ps) := by
  cases ps with
  | nil => exact ⟨h, trivial, Or.inl rfl⟩
  | cons p ps =>
    cases p with
    | plain u => exact absurd h (by simp [WellFormed])
    | ref n => exact ⟨h.1, h.2, Or.inr ⟨n, textOf ps, rfl⟩⟩

theorem wellFormed_ref {n : Nat} {ps : List Piece} (h : WellFormed (.ref n :: ps)) : WellFormed ps := by
  cases ps with
  | nil => trivial
  | cons p ps => exact h

theorem updateRefs_pieces (m : Map Int Int) (ps : List Piece) (h : WellFormed ps) (hs : SmallRefs ps) :
    updateRefs m (textOf ps) = ps.flatMap (Piece.renumbered fun n => m.get n) := by
  induction ps with
  | nil => rfl
  | cons p ps ih =>
    have hs' : SmallRefs ps := fun n hn => hs n (by simp [hn])
    cases p with
    | plain t =>
      obtain ⟨h1, h2, h3⟩ := wellFormed_next h
      have e : textOf (.plain t :: ps) = t ++ textOf ps := rfl
      have ih' := ih h2 hs'
      unfold updateRefs at ih' ⊢
      rw [e, replaceRe_plain h1 h3, ih']
      rfl
    | ref n =>
      have e : textOf (.ref n :: ps) = refText n ++ textOf ps := rfl
      have ih' := ih (wellFormed_ref h) hs'
      have hn := hs n (by simp)
      unfold updateRefs at ih' ⊢
      rw [e, replaceRe_here (by simp [refText]) (by rw [reRef_refText]; rfl), ih']
      have hr := reRef_refText n []
      rw [List.append_nil] at hr
      rw [hr]
      simp only [Option.bind_some]
      have ha : atoiMag 9223372036854775807 (natDec n) = some n := by
        unfold atoiMag
        rw [if_neg (natDec_ne_nil n), if_pos (by rw [List.all_eq_true]; exact natDec_digits n), digitsVal_natDec, if_pos hn]
      rw [ha]
      simp only [Option.getD_some, List.flatMap_cons, Piece.renumbered]
      cases m.get (n : Int) with
      | none => rfl
      | some k => simp [Writer.ref, itoa_decimal]

/-! ### Numbering -/

/-- The numbers given out for the objects `l`, from `base` on. -/
def numbering (base : Int) (l : List Int) (k : Int) : Option Int :=
  if k ∈ l then some (base + l.idxOf k) else none

/-- The readable objects of an input, in the order of the visit. -/
def Input.visited (i : Input) : List Int := i.nums.filter fun n => (i.get n).isSome

theorem foldl_readable (get : Int → Option Bytes) (pn : List Int) (l : List Int) (st : MergeSt) :
    l.foldl (mergeStep get pn) st = (l.filter fun n => (get n).isSome).foldl (mergeStep get pn) st := by
  induction l generalizing st with
  | nil => rfl
  | cons n l ih =>
    rw [List.foldl_cons, List.filter_cons]
    cases h : get n with
    | none => simp only [Option.isSome_none, Bool.false_eq_true, if_false]; rw [← ih]; simp [mergeStep, h]
    | some o => simp only [Option.isSome_some, if_true, List.foldl_cons]; rw [← ih]

theorem idxOf_append_new {l : List Int} {n k : Int} (hk : k ∈ l) : (l ++ [n]).idxOf k = l.idxOf k := by
  rw [List.idxOf_append, if_pos hk]

theorem numbering_snoc (base : Int) (l : List Int) (n : Int) (hn : n ∉ l) (k : Int) :
    numbering base (l ++ [n]) k = if k = n then some (base + l.length) else numbering base l k := by
  unfold numbering
  by_cases hk : k = n
  · subst hk
    rw [if_pos (by simp), if_pos rfl, List.idxOf_append, if_neg hn]
    simp
  · rw [if_neg hk]
    by_cases hm : k ∈ l
    · rw [if_pos (by simp [hm]), if_pos hm, idxOf_append_new hm]
    · rw [if_neg (by simp [hm, hk]), if_neg hm]

/-- What one input contributes: state after visiting the readable objects `l` of it. -/
structure Visited (i : Input) (st0 : MergeSt) (l : List Int) (st : MergeSt) : Prop where
  next : st.next = st0.next + l.length
  map : ∀ k, st.map.get k = numbering st0.next l k
  nums : st.out.map (·.1) = st0.out.map (·.1) ++ (List.range l.length).map fun p : Nat => st0.next + (p : Int)
  pre : st0.out <+: st.out
  texts : ∀ vis n rest o, l = vis ++ n :: rest → i.get n = some o →
    ∃ m : Map Int Int, (∀ k, m.get k = numbering st0.next (vis ++ [n]) k) ∧
      (st0.next + vis.length, updateRefs m o) ∈ st.out
  pages : st.pages = st0.pages ++ (l.filter (· ∈ i.pageNums)).map fun k => st0.next + l.idxOf k

theorem visited_step {i : Input} {st0 : MergeSt} {l : List Int} {st : MergeSt} {n : Int} {o : Bytes}
    (h : Visited i st0 l st) (hn : n ∉ l) (ho : i.get n = some o) :
    Visited i st0 (l ++ [n]) (mergeStep i.get i.pageNums st n) := by
  have hm : ∀ k, (st.map.set n st.next).get k = numbering st0.next (l ++ [n]) k := by
    intro k
    rw [numbering_snoc _ _ _ hn, Map.get_set, h.map k, h.next]
  have e : mergeStep i.get i.pageNums st n =
      { next := st.next + 1, map := st.map.set n st.next, out := st.out ++ [(st.next, updateRefs (st.map.set n st.next) o)],
        pages := if n ∈ i.pageNums then st.pages ++ [st.next] else st.pages } := by
    unfold mergeStep; rw [ho]
  rw [e]
  constructor
  · simp only [h.next]; simp; omega
  · exact hm
  · simp only [List.map_append, h.nums, List.length_append, List.length_cons, List.length_nil, h.next]
    rw [List.range_succ]
    simp
  · exact List.IsPrefix.trans h.pre (List.prefix_append _ _)
  · intro vis n' rest o' hl ho'
    simp only
    rcases List.eq_nil_or_concat rest with hr | ⟨rest', x, hr⟩
    · subst hr
      have hl' := List.append_inj' hl rfl
      obtain ⟨hv, hnn⟩ := hl'
      simp at hnn
      subst hnn hv
      rw [ho] at ho'
      simp at ho'
      subst ho'
      exact ⟨st.map.set n st.next, hm, by rw [h.next]; simp⟩
    · rw [List.concat_eq_append] at hr
      subst hr
      have hl2 : l ++ [n] = (vis ++ n' :: rest') ++ [x] := by rw [hl]; simp
      have hl' := (List.append_inj' hl2 rfl).1
      obtain ⟨m, hm', hmem⟩ := h.texts vis n' rest' o' hl' ho'
      exact ⟨m, hm', by simp [hmem]⟩
  · simp only [List.filter_append, List.map_append]
    have hold : (l.filter (· ∈ i.pageNums)).map (fun k => st0.next + ((l ++ [n]).idxOf k : Int)) =
        (l.filter (· ∈ i.pageNums)).map (fun k => st0.next + (l.idxOf k : Int)) := by
      apply List.map_congr_left
      intro k hk
      rw [idxOf_append_new (List.mem_filter.1 hk).1]
    rw [hold]
    have hnew : (l ++ [n]).idxOf n = l.length := by
      rw [List.idxOf_append, if_neg hn]; simp
    by_cases hp : n ∈ i.pageNums
    · rw [if_pos hp, h.pages, h.next]
      simp [hp, hnew]
    · rw [if_neg hp, h.pages]
      simp [hp]

theorem visited_all (i : Input) (st0 : MergeSt) (l : List Int) (hl : l.Nodup) (hr : ∀ n ∈ l, (i.get n).isSome)
    (h0 : st0.map = []) : Visited i st0 l (l.foldl (mergeStep i.get i.pageNums) st0) := by
  have gen : ∀ rest pre st, (pre ++ rest).Nodup → (∀ n ∈ rest, (i.get n).isSome) → Visited i st0 pre st →
      Visited i st0 (pre ++ rest) (rest.foldl (mergeStep i.get i.pageNums) st) := by
    intro rest
    induction rest with
    | nil => intro pre st _ _ h; simpa using h
    | cons n rest ih =>
      intro pre st hnd hr h
      obtain ⟨o, ho⟩ := Option.isSome_iff_exists.1 (hr n (by simp))
      have hn : n ∉ pre := by
        intro hn
        rw [List.nodup_append] at hnd
        exact hnd.2.2 n hn n (by simp) rfl
      have := ih (pre ++ [n]) _ (by simpa using hnd) (fun m hm => hr m (by simp [hm])) (visited_step h hn ho)
      simpa using this
  have := gen l [] st0 (by simpa using hl) hr
    { next := by simp
      map := by intro k; rw [h0]; simp [numbering, Map.get]
      nums := by simp
      pre := List.prefix_refl _
      texts := by intro vis n rest o h; simp at h
      pages := by simp }
  simpa using this

theorem visited_input (st : MergeSt) (i : Input) (hn : i.nums.Nodup) :
    Visited i { st with map := [] } i.visited (mergeInput st i) := by
  unfold mergeInput
  rw [foldl_readable]
  exact visited_all i _ _ (hn.filter _) (by intro n h; simpa using (List.mem_filter.1 h).2) rfl

/-- How many objects the inputs contribute. -/
def objectCount (inputs : List Input) : Nat := (inputs.map fun i => i.visited.length).sum

theorem fold_numbers (inputs : List Input) (hn : ∀ i ∈ inputs, i.nums.Nodup) (st : MergeSt) :
    (inputs.foldl mergeInput st).next = st.next + objectCount inputs ∧
    (inputs.foldl mergeInput st).out.map (·.1) =
      st.out.map (·.1) ++ (List.range (objectCount inputs)).map (fun p : Nat => st.next + (p : Int)) ∧
    st.out <+: (inputs.foldl mergeInput st).out := by
  induction inputs generalizing st with
  | nil => exact ⟨by simp [objectCount], by simp [objectCount], List.prefix_refl _⟩
  | cons i inputs ih =>
    rw [List.foldl_cons]
    have v := visited_input st i (hn i (by simp))
    obtain ⟨h1, h2, h3⟩ := ih (fun j hj => hn j (by simp [hj])) (mergeInput st i)
    have hc : objectCount (i :: inputs) = i.visited.length + objectCount inputs := by simp [objectCount]
    refine ⟨?_, ?_, ?_⟩
    · rw [h1, v.next, hc]; simp; omega
    · rw [h2, v.nums, hc, List.range_add, List.map_append, v.next, List.append_assoc]
      congr 2
      rw [List.map_map]
      apply List.map_congr_left
      intro p _
      simp; omega
    · exact List.IsPrefix.trans v.pre h3

theorem fold_text (before after : List Input) (i : Input) (hn : ∀ j ∈ before ++ i :: after, j.nums.Nodup) (st : MergeSt)
    (vis rest : List Int) (n : Int) (o : Bytes) (hv : i.visited = vis ++ n :: rest) (ho : i.get n = some o) :
    ∃ m : Map Int Int, (∀ k, m.get k = numbering (st.next + objectCount before) (vis ++ [n]) k) ∧
      (st.next + objectCount before + vis.length, updateRefs m o) ∈ ((before ++ i :: after).foldl mergeInput st).out := by
  rw [List.foldl_append, List.foldl_cons]
  have hb := fold_numbers before (fun j hj => hn j (by simp [hj])) st
  generalize before.foldl mergeInput st = st1 at hb
  have v := visited_input st1 i (hn i (by simp))
  obtain ⟨m, hm, hmem⟩ := v.texts vis n rest o hv ho
  simp only at hm hmem
  rw [hb.1] at hm hmem
  refine ⟨m, hm, ?_⟩
  have ha := (fold_numbers after (fun j hj => hn j (by simp [hj])) (mergeInput st1 i)).2.2
  exact ha.subset hmem

/-- Positions of the pages of each input in the numbering. -/
def pagePositions : Int → List Input → List Int
  | _, [] => []
  | base, i :: is =>
    ((i.visited.filter (· ∈ i.pageNums)).map fun k => base + (i.visited.idxOf k : Int)) ++
      pagePositions (base + i.visited.length) is

theorem fold_pages (inputs : List Input) (hn : ∀ i ∈ inputs, i.nums.Nodup) (st : MergeSt) :
    (inputs.foldl mergeInput st).pages = st.pages ++ pagePositions st.next inputs := by
  induction inputs generalizing st with
  | nil => simp [pagePositions]
  | cons i inputs ih =>
    have v := visited_input st i (hn i (by simp))
    rw [List.foldl_cons, ih (fun j hj => hn j (by simp [hj])), v.pages, v.next, pagePositions, List.append_assoc]

end Pdfer.Manipulate
