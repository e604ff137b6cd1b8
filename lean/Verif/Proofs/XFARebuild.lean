import Verif.Proofs.XFABuilt
import Verif.Spec.XFARebuild

/-! What the rebuilt file contains. -/

namespace Pdfer.XFA

open Pdfer.Go Pdfer.Spec Pdfer.Spec.XFA Pdfer.Forms
open Pdfer.Writer (Writer)

/-! ### The writer -/

theorem writeObjs_infix (env : Writer.Env) (hc : env.crypt = none) (skip : Int → Bool) (heap : List Writer.Dict) (n : Int) (o : Writer.Obj) (hs : skip n = false) :
    ∀ (l : List (Int × Writer.Obj)) (pos : Nat), (n, o) ∈ l → (Writer.objText env heap n o).1 <:+: (Writer.writeObjs env skip pos heap l).1 := by
  have hheap : ∀ k x, (Writer.objText env heap k x).2 = heap := by
    intro k x
    unfold Writer.objText
    cases x.stream <;> simp [hc]
  intro l
  induction l with
  | nil => intro pos h; simp at h
  | cons e l ih =>
    intro pos h
    obtain ⟨k, x⟩ := e
    rw [Writer.writeObjs]
    rcases List.mem_cons.1 h with h | h
    · simp only [Prod.mk.injEq] at h
      obtain ⟨rfl, rfl⟩ := h
      rw [if_neg (by simp [hs])]
      exact (List.prefix_append _ _).isInfix
    · by_cases hk : skip k
      · rw [if_pos hk]
        exact ih _ h
      · rw [if_neg hk]
        have := ih (pos + (Writer.objText env heap k x).1.length) h
        have e2 := hheap k x
        generalize hg : Writer.objText env heap k x = g at *
        obtain ⟨t, h'⟩ := g
        simp only at e2
        subst e2
        exact this.trans (List.suffix_append _ _).isInfix

/-- An object of the writer stands in the file. -/
theorem written_text (env : Writer.Env) (hc : env.crypt = none) (hf : FairOrder env) (w : Writer) (hx : w.useXRefStream = false)
    (ho : w.useObjectStream = false) (n : Int) (o : Writer.Obj) (h : w.objects.get n = some o) :
    (Writer.objText env w.heap n o).1 <:+: (Writer.write env w).1 := by
  rw [Writer.write_table env w hx ho]
  have hm : (n, o) ∈ Writer.sortedObjs env w := (Writer.sortedObjs_mem env hf w n o).2 h
  have := writeObjs_infix env hc (fun _ => false) w.heap n o rfl _ (Writer.header w.pdfVersion).length hm
  refine this.trans ?_
  have e : (Writer.writeObjs env (fun _ => false) (Writer.header w.pdfVersion).length w.heap (Writer.sortedObjs env w)).1 = (Writer.tableBody env w).1 := rfl
  rw [e]
  simp only [List.append_assoc]
  exact ((List.prefix_append _ _).isInfix).trans (List.suffix_append _ _).isInfix

/-- The calls for a list of objects. -/
def applyAll (env : Writer.Env) (w : Writer) (m : List (Int × RObj)) : Writer := (m.filterMap rebuildOp).foldl (fun w op => (Writer.step env w op).1) w

theorem applyAll_cons (env : Writer.Env) (w : Writer) (e : Int × RObj) (m : List (Int × RObj)) :
    applyAll env w (e :: m) = applyAll env (match rebuildOp e with | some op => (Writer.step env w op).1 | none => w) m := by
  unfold applyAll
  rw [List.filterMap_cons]
  cases rebuildOp e <;> rfl

/-- One call. -/
theorem step_one (env : Writer.Env) (w : Writer) (e : Int × RObj) :
    (∀ n, n ≠ e.1 → (match rebuildOp e with | some op => (Writer.step env w op).1 | none => w).objects.get n = w.objects.get n) ∧
    w.heap <+: (match rebuildOp e with | some op => (Writer.step env w op).1 | none => w).heap ∧
    (match rebuildOp e with | some op => (Writer.step env w op).1 | none => w).useXRefStream = w.useXRefStream ∧
    (match rebuildOp e with | some op => (Writer.step env w op).1 | none => w).useObjectStream = w.useObjectStream := by
  obtain ⟨k, o⟩ := e
  unfold rebuildOp
  cases hs : o.stream with
  | some s =>
    simp only [Writer.step, Writer.setStreamObject, Writer.prepareStream]
    refine ⟨fun n hn => Map.get_set_ne _ _ hn, List.prefix_append _ _, ?_, ?_⟩ <;> simp
  | none =>
    by_cases hc : o.content = []
    · simp only [hc, if_true]
      exact ⟨fun _ _ => True.intro, List.prefix_refl _, True.intro, True.intro⟩
    · simp only [hc, if_false, Writer.step, Writer.setObject]
      refine ⟨fun n hn => Map.get_set_ne _ _ hn, List.prefix_refl _, ?_, ?_⟩ <;> simp

theorem applyAll_keep (env : Writer.Env) : ∀ (m : List (Int × RObj)) (w : Writer),
    (∀ n, n ∉ m.map (·.1) → (applyAll env w m).objects.get n = w.objects.get n) ∧ w.heap <+: (applyAll env w m).heap ∧
    (applyAll env w m).useXRefStream = w.useXRefStream ∧ (applyAll env w m).useObjectStream = w.useObjectStream
  | [], w => ⟨fun _ _ => rfl, List.prefix_refl _, rfl, rfl⟩
  | e :: m, w => by
    rw [applyAll_cons]
    obtain ⟨h1, h2, h3, h4⟩ := step_one env w e
    obtain ⟨i1, i2, i3, i4⟩ := applyAll_keep env m (match rebuildOp e with | some op => (Writer.step env w op).1 | none => w)
    refine ⟨fun n hn => ?_, h2.trans i2, i3.trans h3, i4.trans h4⟩
    simp only [List.map_cons, List.mem_cons, not_or] at hn
    rw [i1 n hn.2, h1 n hn.1]

/-- After the calls every object is in the writer. -/
theorem applyAll_get (env : Writer.Env) : ∀ (m : List (Int × RObj)) (w : Writer), (m.map (·.1)).Nodup → ∀ n o, (n, o) ∈ m →
    (∀ s, o.stream = some s → ∃ a, (applyAll env w m).objects.get n = some { content := none, stream := some s, dict := some a } ∧
      (applyAll env w m).heap.getD a [] = o.dict.set b!"Length" (.int s.length)) ∧
    (o.stream = none → o.content ≠ [] → (applyAll env w m).objects.get n = some { content := some o.content, stream := none, dict := none })
  | [], _, _, _, _, h => by simp at h
  | e :: m, w, hn, n, o, h => by
    rw [List.map_cons, List.nodup_cons] at hn
    rw [applyAll_cons]
    rcases List.mem_cons.1 h with h | h
    · subst h
      obtain ⟨k1, k2, _, _⟩ := applyAll_keep env m (match rebuildOp (n, o) with | some op => (Writer.step env w op).1 | none => w)
      refine ⟨fun s hs => ?_, fun hs hc => ?_⟩
      · refine ⟨w.heap.length, ?_, ?_⟩
        · rw [k1 n hn.1]
          simp only [rebuildOp, hs, Writer.step, Writer.setStreamObject, Writer.prepareStream]
          exact Map.get_set_eq _ _ _
        · obtain ⟨t, ht⟩ := k2
          rw [← ht]
          simp [rebuildOp, hs, Writer.step, Writer.setStreamObject, Writer.prepareStream]
      · rw [k1 n hn.1]
        simp only [rebuildOp, hs, hc, if_false, Writer.step, Writer.setObject]
        exact Map.get_set_eq _ _ _
    · exact applyAll_get env m _ hn.2 n o h

/-! ### The texts of the rebuilt file -/

/-- The rebuilt file contains every object of the map. -/
theorem rebuild_texts (unz : Bytes → Option Bytes) (env : Writer.Env) (hc : env.crypt = none) (hf : FairOrder env) (pdf out : Bytes)
    (updates : List (Bytes × Bytes)) (h : rebuild unz env pdf updates = .ok out) : ∃ m0 names, allObjects unz pdf = .ok m0 ∧
      (xfaMap unz pdf = .ok names ∨ (xfaMap unz pdf = .err ∧ names = [])) ∧
      (trailerRef b!"/Root" pdf > 0 → (b!"\n/Root " ++ itoa (trailerRef b!"/Root" pdf) ++ b!" 0 R\n") <:+: out) ∧
      (trailerRef b!"/Info" pdf > 0 → (b!"/Info " ++ itoa (trailerRef b!"/Info" pdf) ++ b!" 0 R\n") <:+: out) ∧
      ((m0.map (·.1)).Nodup → ∀ n o, (n, o) ∈ updates.foldl (replaceData env.z names) m0 →
        (∀ s, o.stream = some s → (itoa n ++ b!" 0 obj\n" ++ Writer.formatDictionary (o.dict.set b!"Length" (.int s.length)) ++ b!"\nstream\n" ++ s ++
          b!"\nendstream\nendobj\n") <:+: out) ∧
        (o.stream = none → o.content ≠ [] → (itoa n ++ b!" 0 obj\n" ++ o.content ++ b!"\nendobj\n") <:+: out)) := by
  unfold rebuild at h
  cases hm : allObjects unz pdf with
  | panic => simp [hm, Res.bind] at h
  | err => simp [hm, Res.bind] at h
  | ok m0 =>
    rw [hm] at h
    simp only [Res.bind] at h
    obtain ⟨names, hn, h⟩ : ∃ names, (xfaMap unz pdf = .ok names ∨ (xfaMap unz pdf = .err ∧ names = [])) ∧
        Res.ok (Writer.write env (Writer.run env ((updates.foldl (replaceData env.z names) m0).filterMap rebuildOp ++
          (if trailerRef b!"/Root" pdf > 0 then [Writer.Op.setRoot (trailerRef b!"/Root" pdf)] else []) ++
          (if trailerRef b!"/Info" pdf > 0 then [Writer.Op.setInfo (trailerRef b!"/Info" pdf)] else [])))).1 = Res.ok out := by
      cases hx : xfaMap unz pdf with
      | panic => simp [hx] at h
      | err => rw [hx] at h; exact ⟨[], .inr ⟨rfl, rfl⟩, h⟩
      | ok names => rw [hx] at h; exact ⟨names, .inl rfl, h⟩
    generalize hroot : trailerRef b!"/Root" pdf = root at h
    generalize hinfo : trailerRef b!"/Info" pdf = info at h
    generalize hM : updates.foldl (replaceData env.z names) m0 = m at h
    have hw : ∃ w : Writer, w.objects = (applyAll env Writer.newWriter m).objects ∧ w.heap = (applyAll env Writer.newWriter m).heap ∧
        w.useXRefStream = false ∧ w.useObjectStream = false ∧ (Writer.write env w).1 = out ∧ (root > 0 → w.rootRef = Writer.ref root) ∧
        (info > 0 → w.infoRef = Writer.ref info) := by
      have k := applyAll_keep env m Writer.newWriter
      have k1 : (applyAll env Writer.newWriter m).useXRefStream = false := k.2.2.1
      have k2 : (applyAll env Writer.newWriter m).useObjectStream = false := k.2.2.2
      refine ⟨_, ?_, ?_, ?_, ?_, Res.ok.inj h, ?_, ?_⟩
      all_goals
        rw [Manipulate.run_append, Manipulate.run_append]
        have e : Writer.run env (m.filterMap rebuildOp) = applyAll env Writer.newWriter m := rfl
        rw [e]
        first
          | (split <;> split <;> simp [Writer.step, k1, k2]; done)
          | (intro hp; rw [if_pos hp]; split <;> simp [Writer.step]; done)
    obtain ⟨w, w1, w2, w3, w4, w5, w6, w7⟩ := hw
    have htr : Writer.trailer w <:+: out := by
      rw [← w5, Writer.write_table env w w3 w4]
      simp only [List.append_assoc]
      exact ((List.prefix_append _ _).isInfix).trans (((List.suffix_append _ _).trans (List.suffix_append _ _)).trans (List.suffix_append _ _)).isInfix
    refine ⟨m0, names, rfl, hn, fun hp => ?_, fun hp => ?_, ?_⟩
    · refine List.IsInfix.trans ?_ htr
      unfold Writer.trailer
      rw [if_pos (by rw [w6 hp]; simp [Writer.ref]), w6 hp]
      exact ⟨b!"trailer\n<<\n" ++ b!"/Size " ++ itoa w.nextObjNum, (if w.infoRef ≠ [] then b!"/Info " ++ w.infoRef ++ b!"\n" else []) ++
        (if w.encryptRef ≠ [] then b!"/Encrypt " ++ w.encryptRef ++ b!"\n" else []) ++
        (if w.fileID.length > 0 then b!"/ID [<" ++ hexUpper w.fileID ++ b!"><" ++ hexUpper w.fileID ++ b!">]\n" else []) ++ b!">>\n", by
        simp only [Writer.ref, List.append_assoc, List.cons_append, List.nil_append]⟩
    · refine List.IsInfix.trans ?_ htr
      unfold Writer.trailer
      rw [if_pos (c := w.infoRef ≠ []) (by rw [w7 hp]; simp [Writer.ref]), w7 hp]
      refine ⟨b!"trailer\n<<\n" ++ b!"/Size " ++ itoa w.nextObjNum ++ b!"\n" ++ (if w.rootRef ≠ [] then b!"/Root " ++ w.rootRef ++ b!"\n" else []),
        (if w.encryptRef ≠ [] then b!"/Encrypt " ++ w.encryptRef ++ b!"\n" else []) ++
        (if w.fileID.length > 0 then b!"/ID [<" ++ hexUpper w.fileID ++ b!"><" ++ hexUpper w.fileID ++ b!">]\n" else []) ++ b!">>\n", ?_⟩
      simp only [Writer.ref, List.append_assoc, List.cons_append, List.nil_append]
    intro hnd
    rw [hM]
    have hnd2 : ∀ (us : List (Bytes × Bytes)) (m : Map Int RObj), (m.map (·.1)).Nodup → ((us.foldl (replaceData env.z names) m).map (·.1)).Nodup := by
      intro us
      induction us with
      | nil => exact fun _ h => h
      | cons u us ih =>
        intro m hm
        rw [List.foldl_cons]
        apply ih
        unfold replaceData
        split
        · exact hm
        · split
          · exact hm
          · exact Map.nodup_set _ _ _ hm
    have hmn := hnd2 updates m0 hnd
    rw [hM] at hmn
    intro n o hno
    obtain ⟨g1, g2⟩ := applyAll_get env m Writer.newWriter hmn n o hno
    refine ⟨fun s hs => ?_, fun hs hc0 => ?_⟩
    · obtain ⟨a, ha, hd⟩ := g1 s hs
      have := written_text env hc hf w w3 w4 n _ (by rw [w1]; exact ha)
      rw [w5] at this
      unfold Writer.objText at this
      simp only [hc, Option.getD_some] at this
      rw [w2, hd] at this
      simpa [List.append_assoc] using this
    · have := written_text env hc hf w w3 w4 n _ (by rw [w1]; exact g2 hs hc0)
      rw [w5] at this
      simpa [Writer.objText] using this

/-! ### Finding the objects -/

theorem findAll_mem {α : Type} (p : Bytes → Option (α × Bytes)) (a : α) : ∀ (s : Bytes) (k : Nat), a ∈ findAll p k s →
    ∃ x y rest, s = x ++ y ∧ p y = some (a, rest)
  | [], _, h => by simp [findAll] at h
  | c :: s, 0, h => by
    rw [findAll] at h
    cases hp : p (c :: s) with
    | none =>
      rw [hp] at h
      obtain ⟨x, y, r, h1, h2⟩ := findAll_mem p a s _ h
      exact ⟨c :: x, y, r, by rw [h1]; rfl, h2⟩
    | some q =>
      rw [hp] at h
      rcases List.mem_cons.1 h with h | h
      · exact ⟨[], c :: s, q.2, rfl, by rw [h, hp]⟩
      · obtain ⟨x, y, r, h1, h2⟩ := findAll_mem p a s _ h
        exact ⟨c :: x, y, r, by rw [h1]; rfl, h2⟩
  | c :: s, k + 1, h => by
    rw [findAll] at h
    obtain ⟨x, y, r, h1, h2⟩ := findAll_mem p a s _ h
    exact ⟨c :: x, y, r, by rw [h1]; rfl, h2⟩

/-- If no match that starts before `x` ends inside it, the matches in `x` are found. -/
theorem findAll_resume {α : Type} (p : Bytes → Option (α × Bytes)) (x : Bytes) : ∀ (pre : Bytes) (k : Nat), k ≤ pre.length →
    (∀ a y r rest, pre = a ++ y → y ≠ [] → p (y ++ x) = some (r, rest) → x.length ≤ rest.length) →
    ∃ l, findAll p k (pre ++ x) = l ++ findAll p 0 x
  | [], k, hk, _ => by
    simp at hk
    subst hk
    exact ⟨[], rfl⟩
  | c :: pre, 0, _, h => by
    rw [List.cons_append, findAll]
    have h' : ∀ a y r rest, pre = a ++ y → y ≠ [] → p (y ++ x) = some (r, rest) → x.length ≤ rest.length :=
      fun a y r rest he hy hp => h (c :: a) y r rest (by rw [he]; rfl) hy hp
    cases hp : p (c :: (pre ++ x)) with
    | none => exact findAll_resume p x pre 0 (Nat.zero_le _) h'
    | some q =>
      have hl := h [] (c :: pre) q.1 q.2 rfl (by simp) hp
      obtain ⟨l, hl2⟩ := findAll_resume p x pre ((pre ++ x).length - q.2.length) (by rw [List.length_append]; omega) h'
      exact ⟨q.1 :: l, by simp only [hl2, List.cons_append]⟩
  | c :: pre, k + 1, hk, h => by
    rw [List.cons_append, findAll]
    exact findAll_resume p x pre k (by simpa using hk) fun a y r rest he hy hp => h (c :: a) y r rest (by rw [he]; rfl) hy hp

/-- What the header pattern consumes. -/
theorem reObjHeader_spec {s ds r : Bytes} (h : reObjHeader s = some (ds, r)) : ∃ w1 g w2, ds ≠ [] ∧ (∀ c ∈ ds, isDigit c = true) ∧ w1 ≠ [] ∧
    (∀ c ∈ w1, Manipulate.White c) ∧ g ≠ [] ∧ (∀ c ∈ g, isDigit c = true) ∧ w2 ≠ [] ∧ (∀ c ∈ w2, Manipulate.White c) ∧
    s = ds ++ (w1 ++ (g ++ (w2 ++ (b!"obj" ++ r)))) := by
  unfold reObjHeader at h
  simp only [Option.bind_eq_some_iff, Option.map_eq_some_iff, Prod.mk.injEq] at h
  obtain ⟨p, h1, r1, h2, q, h3, r2, h4, r3, h5, rfl, rfl⟩ := h
  obtain ⟨a1, a2, a3, _⟩ := Manipulate.reNum_some (d := p.1) (t := p.2) h1
  obtain ⟨w1, b1, b2, b3⟩ := reSp1_spec h2
  obtain ⟨c1, c2, c3, _⟩ := Manipulate.reNum_some (d := q.1) (t := q.2) h3
  obtain ⟨w2, d1, d2, d3⟩ := reSp1_spec h4
  have e := Manipulate.reLit_some h5
  exact ⟨w1, q.1, w2, a1, a2, b1, b2, c1, c2, d1, d2, by rw [a3, b3, c3, d3, e]⟩

theorem white_not_digit {c : UInt8} (h : Manipulate.White c) : isDigit c = false := by
  rcases h with rfl | rfl | rfl | rfl | rfl <;> decide

theorem reObjHeader_here (n : Nat) (t : Bytes) : reObjHeader (natDec n ++ b!" 0 obj" ++ t) = some (natDec n, t) := by
  unfold reObjHeader
  rw [List.append_assoc, reNum_natDec (n := n) (by intro c hc; simp at hc; subst hc; decide)]
  have h1 : reSp1 (b!" 0 obj" ++ t) = some (b!"0 obj" ++ t) := reSp1_one (by intro c hc; simp at hc; subst hc; decide)
  have h2 : reNum (b!"0 obj" ++ t) = some (b!"0", b!" obj" ++ t) := reNum_natDec (n := 0) (by intro c hc; simp at hc; subst hc; decide)
  have h3 : reSp1 (b!" obj" ++ t) = some (b!"obj" ++ t) := reSp1_one (by intro c hc; simp at hc; subst hc; decide)
  simp only [Option.bind_some, h1, h2, h3, reLit_append, Option.map_some]

/-- No header that starts before the object ends inside its header. -/
theorem header_straddle (n : Nat) (y t ds r : Bytes) (hy : y ≠ []) (hl : ∀ c, y.getLast? = some c → isDigit c = false)
    (h : reObjHeader (y ++ (natDec n ++ b!" 0 obj" ++ t)) = some (ds, r)) : (natDec n ++ b!" 0 obj" ++ t).length ≤ r.length := by
  obtain ⟨w1, g, w2, h1, h2, h3, h4, h5, h6, h7, h8, h9⟩ := reObjHeader_spec h
  obtain ⟨d, dt, hd⟩ : ∃ d dt, natDec n = d :: dt := by
    cases hh : natDec n with
    | nil => exact absurd hh (natDec_ne_nil n)
    | cons d dt => exact ⟨d, dt, rfl⟩
  have hdd : ∀ c ∈ natDec n, isDigit c = true := fun c hc => natDec_digits n c hc
  have last : ∀ a b : Bytes, y = a ++ b → b ≠ [] → (∀ c ∈ b, isDigit c = true) → False := by
    intro a b hab hb hbd
    obtain ⟨c, hc⟩ : ∃ c, b.getLast? = some c := by
      cases hb' : b.getLast? with
      | none => exact absurd (List.getLast?_eq_none_iff.1 hb') hb
      | some c => exact ⟨c, rfl⟩
    have : y.getLast? = some c := by rw [hab, List.getLast?_append, hc]; rfl
    have h1 := hl c this
    rw [hbd c (List.mem_of_getLast? hc)] at h1
    simp at h1
  -- a number followed by white space and `obj` is not the header
  have num : ∀ g', (∀ c ∈ g', isDigit c = true) → g' ++ (w2 ++ (b!"obj" ++ r)) = natDec n ++ b!" 0 obj" ++ t → False := by
    intro g' hg' he
    obtain ⟨c2, w2', rfl⟩ : ∃ c w, w2 = c :: w := by
      cases w2 with
      | nil => exact absurd rfl h7
      | cons c w => exact ⟨c, w, rfl⟩
    have e1 : (g' ++ (c2 :: w2' ++ (b!"obj" ++ r))).dropWhile isDigit = c2 :: w2' ++ (b!"obj" ++ r) := by
      rw [List.dropWhile_append_of_pos hg', List.cons_append, List.dropWhile_cons, if_neg (by rw [white_not_digit (h8 c2 (by simp))]; simp)]
    have e2 : (natDec n ++ b!" 0 obj" ++ t).dropWhile isDigit = b!" 0 obj" ++ t := by
      rw [List.append_assoc, List.dropWhile_append_of_pos hdd]
      rfl
    rw [he, e2] at e1
    simp only [List.cons_append, List.nil_append, List.cons.injEq] at e1
    obtain ⟨rfl, e1⟩ := e1
    cases w2' with
    | nil => simp at e1
    | cons c w =>
      simp only [List.cons_append, List.cons.injEq] at e1
      have := h8 c (by simp)
      rw [← e1.1] at this
      exact absurd this (by unfold Manipulate.White; decide)
  have head : ∀ z s : Bytes, z ++ s = natDec n ++ b!" 0 obj" ++ t → (∀ c ∈ z, Manipulate.White c) → z = [] := by
    intro z s he hz
    cases z with
    | nil => rfl
    | cons c z =>
      rw [hd] at he
      simp only [List.cons_append, List.cons.injEq] at he
      have h1 := white_not_digit (hz c (by simp))
      rw [he.1, hdd d (by rw [hd]; simp)] at h1
      simp at h1
  rw [List.append_eq_append_iff] at h9
  rcases h9 with ⟨z, hz, _⟩ | ⟨y1, rfl, h9⟩
  · exact absurd (last [] y rfl hy fun c hc => h2 c (by rw [hz]; simp [hc])) id
  rw [List.append_eq_append_iff] at h9
  rcases h9 with ⟨z, rfl, h9⟩ | ⟨z, rfl, h9⟩
  swap
  · have hz := head z _ h9.symm fun c hc => h4 c (by simp [hc])
    subst hz
    exact absurd (num g h6 h9.symm) id
  rw [List.append_eq_append_iff] at h9
  rcases h9 with ⟨y3, rfl, h9⟩ | ⟨u, rfl, h9⟩
  swap
  · by_cases hz : z = []
    · subst hz
      exact absurd (num u (fun c hc => h6 c (by simp [hc])) h9.symm) id
    · exact absurd (last (ds ++ w1) z (by simp) hz fun c hc => h6 c (by simp [hc])) id
  rw [List.append_eq_append_iff] at h9
  rcases h9 with ⟨y4, rfl, h9⟩ | ⟨u, rfl, h9⟩
  swap
  · have hu := head u _ h9.symm fun c hc => h8 c (by simp [hc])
    subst hu
    rw [hd] at h9
    simp only [List.nil_append, List.cons_append, List.cons.injEq] at h9
    have := hdd d (by rw [hd]; simp)
    rw [h9.1] at this
    exact absurd this (by decide)
  rw [List.append_eq_append_iff] at h9
  rcases h9 with ⟨y5, _, h9⟩ | ⟨u, hu, h9⟩
  · rw [h9]; simp
  · have : u = [] := by
      cases u with
      | nil => rfl
      | cons c u =>
        rw [hd] at h9
        simp only [List.cons_append, List.cons.injEq] at h9
        have hc : c ∈ b!"obj" := by rw [hu]; simp
        have h1 := hdd d (by rw [hd]; simp)
        rw [h9.1] at h1
        simp only [List.mem_cons, List.not_mem_nil, or_false] at hc
        rcases hc with rfl | rfl | rfl <;> exact absurd h1 (by decide)
    subst this
    rw [h9]; simp

theorem directObjects_append : ∀ (l1 l2 : List (Bytes × Bytes)) (m m' : Map Int RObj), directObjects m (l1 ++ l2) = .ok m' →
    ∃ m1, directObjects m l1 = .ok m1 ∧ directObjects m1 l2 = .ok m'
  | [], _, m, _, h => ⟨m, rfl, h⟩
  | (ds, a) :: l1, l2, m, m', h => by
    rw [List.cons_append, directObjects] at h
    rw [directObjects]
    cases hr : rebuildObj a with
    | panic => rw [hr] at h; simp [Res.bind] at h
    | err => rw [hr] at h; simp [Res.bind] at h
    | ok o =>
      rw [hr] at h
      cases o with
      | none => exact directObjects_append l1 l2 _ _ h
      | some o => exact directObjects_append l1 l2 _ _ h

theorem directObjects_other (n : Int) : ∀ (l : List (Bytes × Bytes)) (m m' : Map Int RObj), (∀ e ∈ l, (atoiClamp e.1 : Int) ≠ n) →
    directObjects m l = .ok m' → m'.get n = m.get n
  | [], m, _, _, h => by cases h; rfl
  | (ds, a) :: l, m, m', hl, h => by
    rw [directObjects] at h
    cases hr : rebuildObj a with
    | panic => rw [hr] at h; simp [Res.bind] at h
    | err => rw [hr] at h; simp [Res.bind] at h
    | ok o =>
      rw [hr] at h
      cases o with
      | none => exact directObjects_other n l _ _ (fun e he => hl e (by simp [he])) h
      | some o =>
        rw [directObjects_other n l _ _ (fun e he => hl e (by simp [he])) h]
        exact Map.get_set_ne _ _ fun h' => hl (ds, a) (by simp) h'.symm

theorem directObjects_nodup : ∀ (l : List (Bytes × Bytes)) (m m' : Map Int RObj), m.keys.Nodup → directObjects m l = .ok m' → m'.keys.Nodup
  | [], m, _, hm, h => by cases h; exact hm
  | (ds, a) :: l, m, m', hm, h => by
    rw [directObjects] at h
    cases hr : rebuildObj a with
    | panic => rw [hr] at h; simp [Res.bind] at h
    | err => rw [hr] at h; simp [Res.bind] at h
    | ok o =>
      rw [hr] at h
      cases o with
      | none => exact directObjects_nodup l _ _ hm h
      | some o => exact directObjects_nodup l _ _ (Map.nodup_set _ _ _ hm) h

theorem streamObjects_keep (unz : Bytes → Option Bytes) (pdf : Bytes) : ∀ (l : List (Int × Nat × Nat)) (m m' : Map Int RObj),
    m.keys.Nodup → streamObjects unz pdf m l = .ok m' → m'.keys.Nodup ∧ ∀ n o, m.get n = some o → m'.get n = some o
  | [], m, _, hm, h => by cases h; exact ⟨hm, fun _ _ h => h⟩
  | (k, stm, idx) :: l, m, m', hm, h => by
    rw [streamObjects] at h
    split at h
    · exact streamObjects_keep unz pdf l m m' hm h
    · rename_i hk
      split at h
      · simp at h
      · exact streamObjects_keep unz pdf l m m' hm h
      · rename_i d hd
        obtain ⟨h1, h2⟩ := streamObjects_keep unz pdf l _ m' (Map.nodup_set _ _ _ hm) h
        refine ⟨h1, fun n o hno => h2 n o ?_⟩
        rw [Map.get_set_ne _ _ (by rintro rfl; rw [hno] at hk; simp at hk)]
        exact hno

/-- The object is found in the file. -/
theorem found_object (unz : Bytes → Option Bytes) {pdf : Bytes} {n : Nat} {before body rest : Bytes} (hl : LastObject pdf n before body rest)
    {m : Map Int RObj} (hm : allObjects unz pdf = .ok m) : m.keys.Nodup ∧ ∃ o, rebuildObj (body ++ b!"endobj" ++ rest) = .ok (some o) ∧ m.get n = some o := by
  unfold allObjects at hm
  cases hd : directObjects [] (findAll (fun s => (reObjHeader s).map fun p => (p, p.2)) 0 pdf) with
  | panic => rw [hd] at hm; simp [Res.bind] at hm
  | err => rw [hd] at hm; simp [Res.bind] at hm
  | ok m0 =>
    rw [hd] at hm
    have hnd := directObjects_nodup _ _ _ (by simp [Map.keys]) hd
    have key : ∃ o, rebuildObj (body ++ b!"endobj" ++ rest) = .ok (some o) ∧ m0.get n = some o := by
      rw [hl.text] at hd
      obtain ⟨l, hll⟩ := findAll_resume (fun s => (reObjHeader s).map fun p => (p, p.2)) (natDec n ++ b!" 0 obj" ++ (body ++ b!"endobj" ++ rest)) before 0
        (Nat.zero_le _) (by
          intro a y r rst hay hy hp
          simp only [Option.map_eq_some_iff, Prod.mk.injEq] at hp
          obtain ⟨q, hq, _, rfl⟩ := hp
          refine header_straddle n y _ q.1 q.2 hy (fun c hc => hl.notDigit c ?_) hq
          rw [hay, List.getLast?_append, hc]
          rfl)
      have hhere : findAll (fun s => (reObjHeader s).map fun p => (p, p.2)) 0 (natDec n ++ b!" 0 obj" ++ (body ++ b!"endobj" ++ rest)) =
          (natDec n, body ++ b!"endobj" ++ rest) :: findAll (fun s => (reObjHeader s).map fun p => (p, p.2)) 0 (body ++ b!"endobj" ++ rest) :=
        findAll_here (by simp) (by simp only [reObjHeader_here, Option.map_some])
      rw [hll, hhere] at hd
      obtain ⟨m1, _, hd⟩ := directObjects_append _ _ _ _ hd
      rw [directObjects] at hd
      have hoth : ∀ e ∈ findAll (fun s => (reObjHeader s).map fun p => (p, p.2)) 0 (body ++ b!"endobj" ++ rest), (atoiClamp e.1 : Int) ≠ n := by
        intro e he heq
        obtain ⟨x, y, r, hxy, hp⟩ := findAll_mem _ _ _ _ he
        simp only [Option.map_eq_some_iff, Prod.mk.injEq] at hp
        obtain ⟨q, hq, rfl, rfl⟩ := hp
        obtain ⟨w1, g, w2, h1, h2, h3, h4, h5, h6, h7, h8, h9⟩ := reObjHeader_spec (ds := q.1) (r := q.2) hq
        refine hl.last x y (q.1 ++ w1 ++ g ++ w2 ++ b!"obj") hxy ⟨q.1, w1, g, w2, h1, h2, h3, h4, h5, h6, h7, h8, by omega, rfl⟩ ⟨q.2, ?_⟩
        rw [h9]; simp
      have hend : ∃ e, index b!"endobj" (body ++ b!"endobj" ++ rest) = some e := ⟨_, by
        rw [List.append_assoc]
        exact Manipulate.index_first (by decide) ((Incremental.absent_iff (by decide)).1 hl.noEnd)⟩
      cases hr : rebuildObj (body ++ b!"endobj" ++ rest) with
      | panic => rw [hr] at hd; simp [Res.bind] at hd
      | err => rw [hr] at hd; simp [Res.bind] at hd
      | ok o =>
        rw [hr] at hd
        cases o with
        | none =>
          exfalso
          obtain ⟨e, he⟩ := hend
          unfold rebuildObj at hr
          rw [he] at hr
          simp only at hr
          split at hr
          · simp at hr
          · unfold Res.bind at hr
            split at hr <;> simp at hr
        | some o =>
          refine ⟨o, rfl, ?_⟩
          have := directObjects_other n _ _ _ hoth hd
          rw [this, atoiClamp_natDec n hl.number]
          exact Map.get_set_eq _ _ _
    obtain ⟨o, ho1, ho2⟩ := key
    simp only [Res.bind] at hm
    split at hm
    · split at hm
      · simp at hm
      · cases hm; exact ⟨hnd, o, ho1, ho2⟩
      · obtain ⟨h1, h2⟩ := streamObjects_keep _ _ _ _ _ hnd hm
        exact ⟨h1, o, ho1, h2 _ _ ho2⟩
    · cases hm; exact ⟨hnd, o, ho1, ho2⟩

end Pdfer.XFA
