import Verif.Proofs.ObjStm

/-! `GetObjectFromStream` on a file with a conforming object stream, and the object-stream map of `Write`. -/

namespace Pdfer.XRefStream

open Pdfer.Go Pdfer.Writer Pdfer.Spec

/-- Dictionary of an object stream as text. -/
theorem stmDict_text (N first : Nat) (comp : Bytes) :
    formatDictionary (objStreamDict N first comp) =
      b!"<</Filter /FlateDecode /First " ++ (natDec first ++ (b!" /Length " ++ (natDec comp.length ++
      (b!" /N " ++ (natDec N ++ b!" /Type /ObjStm >>"))))) := by
  simp [formatDictionary, formatDictOrd, formatValue, objStreamDict, formatEntries, formatPair,
    renderEntries, sortBy, insertBy, bytesLe, slashKey, itoa]

theorem searchSuffix_skip {p : Bytes → Option Unit} {a s : Bytes}
    (h : ∀ i, i < a.length → p ((a ++ s).drop i) = none) : searchSuffix p (a ++ s) = searchSuffix p s := by
  induction a with
  | nil => rfl
  | cons c a ih =>
    have h0 := h 0 (by simp)
    simp only [List.drop_zero, List.cons_append] at h0
    rw [List.cons_append, searchSuffix, h0]
    exact ih (fun i hi => by simpa using h (i + 1) (by simpa using hi))

theorem searchSuffix_here {p : Bytes → Option Unit} {s : Bytes} (h : p s = some ()) : searchSuffix p s = some s := by
  cases s with
  | nil => simp [searchSuffix, h]
  | cons c s => simp [searchSuffix, h]

/-- The text of an object stream object. -/
def stmText (k N first : Nat) (comp rest : Bytes) : Bytes :=
  natDec k ++ (b!" 0 obj\n" ++ (formatDictionary (objStreamDict N first comp) ++ (b!"\nstream\n" ++ (comp ++ rest))))

theorem getObject_file (unz dec : Bytes → Option Bytes) (pre comp rest d plain : Bytes) (k N first : Nat)
    (objNum : Int) (idx : Nat) (hlen : comp.length < 2 ^ 63) (hf : first < 2 ^ 63)
    (hpre : ∀ i, i < pre.length → reObjNum k ((pre ++ stmText k N first comp rest).drop i) = none)
    (hd : dec comp = some d) (hu : unz d = some plain) :
    getObjectFromStream unz dec (pre ++ stmText k N first comp rest) objNum k idx = extract first plain objNum idx := by
  have hp : ∀ key s, reKeyNum key s ≠ none → key <+: s := fun key s => reKeyNum_prefix
  have hobj : reObjNum k (stmText k N first comp rest) = some () := by
    unfold reObjNum stmText
    rw [reLit_append]
    rfl
  -- the dictionary
  have h60 : (60 : UInt8) ∉ natDec k ++ b!" 0 obj\n" := by
    simp only [List.mem_append, not_or]
    exact ⟨not_mem_natDec (by decide) _, by decide⟩
  have hidx : index b!"<<" (stmText k N first comp rest) = some ((natDec k).length + 7) := by
    unfold stmText
    rw [← List.append_assoc, index_skip h60, stmDict_text, index_here (by exact ⟨_, rfl⟩)]
    simp
  have hdrop : (stmText k N first comp rest).drop ((natDec k).length + 7) =
      formatDictionary (objStreamDict N first comp) ++ (b!"\nstream\n" ++ (comp ++ rest)) := by
    unfold stmText
    simp
  -- `>>`
  have hgt : index b!">>" (formatDictionary (objStreamDict N first comp) ++ (b!"\nstream\n" ++ (comp ++ rest))) =
      some ((formatDictionary (objStreamDict N first comp)).length - 2) := by
    have e : formatDictionary (objStreamDict N first comp) ++ (b!"\nstream\n" ++ (comp ++ rest)) =
        (b!"<</Filter /FlateDecode /First " ++ (natDec first ++ (b!" /Length " ++ (natDec comp.length ++
        (b!" /N " ++ (natDec N ++ b!" /Type /ObjStm ")))))) ++ (b!">>" ++ (b!"\nstream\n" ++ (comp ++ rest))) := by
      rw [stmDict_text]; simp
    rw [e, index_skip, index_here (by exact ⟨_, rfl⟩), stmDict_text]
    · simp; omega
    · have h62 : ∀ n, (62 : UInt8) ∉ natDec n := not_mem_natDec (by decide)
      simp [h62]
  -- `stream`
  have hst : index b!"stream" (formatDictionary (objStreamDict N first comp) ++ (b!"\nstream\n" ++ (comp ++ rest))) =
      some ((formatDictionary (objStreamDict N first comp)).length + 1) := by
    have hno : NoOcc b!"stream" (formatDictionary (objStreamDict N first comp)) := by
      have hnum : ∀ n, NoOcc b!"stream" (natDec n) := fun n => noOcc_of_head (not_mem_natDec (by decide) n)
      have hlit : ∀ l ∈ [b!"<</Filter", b!"/FlateDecode", b!"/First", b!"/Length", b!"/N", b!"/Type", b!"/ObjStm", b!">>"],
          NoOcc b!"stream" l := by
        intro l hl
        rw [noOcc_iff_index]
        revert l
        decide
      have := noOcc_mid (c := 32) (by decide) (hlit b!"<</Filter" (by simp)) <|
        noOcc_mid (c := 32) (by decide) (hlit b!"/FlateDecode" (by simp)) <|
        noOcc_mid (c := 32) (by decide) (hlit b!"/First" (by simp)) <|
        noOcc_mid (c := 32) (by decide) (hnum first) <|
        noOcc_mid (c := 32) (by decide) (hlit b!"/Length" (by simp)) <|
        noOcc_mid (c := 32) (by decide) (hnum comp.length) <|
        noOcc_mid (c := 32) (by decide) (hlit b!"/N" (by simp)) <|
        noOcc_mid (c := 32) (by decide) (hnum N) <|
        noOcc_mid (c := 32) (by decide) (hlit b!"/Type" (by simp)) <|
        noOcc_mid (c := 32) (by decide) (hlit b!"/ObjStm" (by simp)) (hlit b!">>" (by simp))
      rw [stmDict_text]
      simpa using this
    exact index_after (c := 10) (by decide) hno ⟨_, rfl⟩
  -- numbers in the dictionary
  have hL : ∀ s, searchWith (reKeyNum b!"/Length") (formatDictionary (objStreamDict N first comp) ++ s) =
      some (natDec comp.length) := by
    intro s
    rw [stmDict_text]
    simp only [List.append_assoc]
    rw [searchWith_lit (hp _), key_skip_digits (key := b!"Length") (hp _), List.cons_append, searchWith,
      not_prefix_none (hp _) (by rfl)]
    · apply searchWith_here
      exact reKeyNum_natDec (key := b!"/Length") (by simp; decide)
    · intro i hi
      have : i < 30 := hi
      interval_cases i <;> rfl
  have hF : ∀ s, searchWith (reKeyNum b!"/First") (formatDictionary (objStreamDict N first comp) ++ s) =
      some (natDec first) := by
    intro s
    rw [stmDict_text]
    simp only [List.append_assoc]
    rw [show b!"<</Filter /FlateDecode /First " = b!"<</Filter /FlateDecode " ++ b!"/First " from rfl, List.append_assoc,
      searchWith_lit (hp _)]
    · apply searchWith_here
      exact reKeyNum_natDec (key := b!"/First") (by simp; decide)
    · intro i hi
      have : i < 23 := hi
      interval_cases i <;> rfl
  have hN : ∀ s, searchWith (reKeyNum b!"/N") (formatDictionary (objStreamDict N first comp) ++ s) =
      some (natDec N) := by
    intro s
    rw [stmDict_text]
    simp only [List.append_assoc]
    rw [searchWith_lit (hp _), key_skip_digits (key := b!"N") (hp _), searchWith_lit (hp _),
      key_skip_digits (key := b!"N") (hp _), List.cons_append, searchWith, not_prefix_none (hp _) (by rfl)]
    · apply searchWith_here
      exact reKeyNum_natDec (key := b!"/N") (by simp; decide)
    · intro i hi
      have : i < 9 := hi
      interval_cases i <;> rfl
    · intro i hi
      have : i < 30 := hi
      interval_cases i <;> rfl
  unfold getObjectFromStream
  rw [searchSuffix_skip hpre, searchSuffix_here hobj]
  simp only [Res.ofOption, Res.bind]
  rw [hidx]
  simp only []
  rw [hdrop, hgt]
  simp only []
  have hdl : 2 ≤ (formatDictionary (objStreamDict N first comp)).length := by rw [stmDict_text]; simp
  have htake : (formatDictionary (objStreamDict N first comp) ++ (b!"\nstream\n" ++ (comp ++ rest))).take
      ((formatDictionary (objStreamDict N first comp)).length - 2 + 2) = formatDictionary (objStreamDict N first comp) ++ [] := by
    rw [Nat.sub_add_cancel hdl, List.take_left, List.append_nil]
  rw [htake, hL, hst]
  simp only []
  have hdata : (stmText k N first comp rest).drop ((natDec k).length + 7 +
      ((formatDictionary (objStreamDict N first comp)).length + 1) + 6) = 10 :: (comp ++ rest) := by
    rw [Nat.add_assoc, ← List.drop_drop, hdrop,
      show (formatDictionary (objStreamDict N first comp)).length + 1 + 6 =
        (formatDictionary (objStreamDict N first comp)).length + 7 by omega, ← List.drop_drop, List.drop_left]
    rfl
  rw [hdata]
  rw [show skipEol (10 :: (comp ++ rest)) = comp ++ rest from rfl]
  rw [atoiClamp_natDec _ (by omega), if_neg (by simp), List.take_left, hd]
  simp only []
  rw [hu]
  simp only []
  have htake2 : (formatDictionary (objStreamDict N first comp) ++ (b!"\nstream\n" ++ (comp ++ rest))).take
      ((formatDictionary (objStreamDict N first comp)).length + 1) = formatDictionary (objStreamDict N first comp) ++ b!"\n" := by
    rw [List.take_append]; simp [List.take_of_length_le]
  rw [htake2, hN, hF]
  simp only []
  rw [atoiClamp_natDec _ (by omega)]

/-! ### The map from objects to their place in the object stream -/

theorem eligible_keys (env : Env) (henv : ∀ l, (env.order l).Perm l) (w : Writer) (hi : Inv w) :
    ((eligible env w).map (·.1)).Nodup ∧
    ∀ n c, (n, c) ∈ eligible env w ↔ ∃ o, w.objects.get n = some o ∧ o.stream = none ∧ o.content = some c := by
  constructor
  · have hnd : (env.order w.objects.keys).Nodup := (henv _).nodup_iff.2 hi.nodup
    unfold eligible
    generalize env.order w.objects.keys = l at hnd
    induction l with
    | nil => simp
    | cons n l ih =>
      rw [List.nodup_cons] at hnd
      rw [List.filterMap_cons]
      split
      · exact ih hnd.2
      · rename_i b hb
        rw [List.map_cons, List.nodup_cons]
        refine ⟨?_, ih hnd.2⟩
        intro hm
        obtain ⟨e, he, h1⟩ := List.mem_map.1 hm
        obtain ⟨m, hm', h2⟩ := List.mem_filterMap.1 he
        have key : ∀ m e, (match w.objects.get m with
            | some o => if o.stream.isNone = true then Option.map (fun c => (m, c)) o.content else none
            | none => none) = some e → e.1 = m := by
          intro m e h
          split at h
          · split at h
            · cases hc : (‹Obj›).content with
              | none => rw [hc] at h; simp at h
              | some c => rw [hc] at h; simp at h; rw [← h]
            · simp at h
          · simp at h
        have e1 := key _ _ hb
        have e2 := key _ _ h2
        rw [e1, e2] at h1
        exact hnd.1 (h1 ▸ hm')
  · intro n c
    unfold eligible
    rw [List.mem_filterMap]
    constructor
    · rintro ⟨m, _, h⟩
      split at h
      · rename_i o ho
        split at h
        · rename_i hs
          cases hc : o.content with
          | none => rw [hc] at h; simp at h
          | some c' =>
            rw [hc] at h; simp at h
            obtain ⟨rfl, rfl⟩ := h
            exact ⟨o, ho, by simpa using hs, hc⟩
        · simp at h
      · simp at h
    · rintro ⟨o, ho, hs, hc⟩
      refine ⟨n, ?_, by rw [ho]; simp [hs, hc]⟩
      rw [(henv _).mem_iff]
      exact (Map.get_isSome_iff _ _).1 (by rw [ho]; rfl)

theorem create_on (env : Env) (w : Writer) (ho : w.useObjectStream = true) (he : eligible env w ≠ []) :
    (createObjectStreams env w).2 = (eligible env w).zipIdx.map
      (fun e => (e.1.1, { streamObjNum := w.nextObjNum, index := e.2 })) ∧
    (createObjectStreams env w).1.nextObjNum = w.nextObjNum + 1 ∧
    (createObjectStreams env w).1.objects = w.objects.set w.nextObjNum
      { content := none, stream := some (env.z (objStreamPlain (eligible env w)).2), dict := some w.heap.length } := by
  unfold createObjectStreams
  simp [ho, he]

theorem zipIdx_get (l : List (Int × Bytes)) (k : Int) (hn : (l.map (·.1)).Nodup) (m : Int) (start i : Nat) :
    Map.get (ν := StmRef) ((l.zipIdx start).map (fun e => (e.1.1, { streamObjNum := k, index := e.2 }))) m =
      some { streamObjNum := k, index := start + i } ↔ (l.map (·.1))[i]? = some m := by
  induction l generalizing start i with
  | nil => simp [Map.get]
  | cons e l ih =>
    rw [List.map_cons, List.nodup_cons] at hn
    simp only [List.zipIdx_cons, List.map_cons]
    by_cases h : e.1 = m
    · subst h
      simp only [Map.get, List.find?_cons, decide_true, Option.map_some, Option.some.injEq, StmRef.mk.injEq, true_and]
      constructor
      · intro h; have : i = 0 := by omega
        subst this; rfl
      · intro h
        cases i with
        | zero => rfl
        | succ i =>
          rw [List.getElem?_cons_succ] at h
          exact absurd (List.mem_of_getElem? h) hn.1
    · have hg : Map.get (ν := StmRef) ((e.1, ⟨k, start⟩) :: (l.zipIdx (start + 1)).map (fun e => (e.1.1, ⟨k, e.2⟩))) m =
          Map.get ((l.zipIdx (start + 1)).map (fun e => (e.1.1, (⟨k, e.2⟩ : StmRef)))) m := by
        simp [Map.get, h]
      rw [hg]
      cases i with
      | zero =>
        simp only [List.getElem?_cons_zero, Option.some.injEq, h, iff_false]
        intro hc
        have hm := get_mem _ _ _ hc
        obtain ⟨x, hx, he⟩ := List.mem_map.1 hm
        have := (List.mem_zipIdx hx).1
        simp at he
        omega
      | succ i =>
        rw [List.getElem?_cons_succ, ← ih hn.2 (start + 1) i, show start + (i + 1) = start + 1 + i by omega]

theorem zipIdx_get_some (l : List (Int × Bytes)) (k : Int) (m : Int) (start : Nat) (r : StmRef)
    (h : Map.get (ν := StmRef) ((l.zipIdx start).map (fun e => (e.1.1, { streamObjNum := k, index := e.2 }))) m = some r) :
    r.streamObjNum = k ∧ start ≤ r.index ∧ r.index < start + l.length ∧ m ∈ l.map (·.1) := by
  have hm := get_mem _ _ _ h
  obtain ⟨x, hx, he⟩ := List.mem_map.1 hm
  have h1 := List.mem_zipIdx hx
  simp only [Prod.mk.injEq] at he
  obtain ⟨e1, e2⟩ := he
  subst e2
  refine ⟨rfl, h1.1, h1.2.1, ?_⟩
  rw [← e1]
  rw [h1.2.2]
  exact List.mem_map.2 ⟨_, List.getElem_mem _, rfl⟩

end Pdfer.XRefStream
