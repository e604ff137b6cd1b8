import Verif.Proofs.Merge
import Verif.Proofs.XPages

/-! Rebuilding and extracting as operations of the writer. -/

namespace Pdfer.Manipulate

open Pdfer.Go Pdfer.Incremental Pdfer.Spec.Manipulate

/-- The loop that fills the object map. -/
def fillStep (get : Int → Option Bytes) (m : Map Int Bytes) (k : Int) : Map Int Bytes :=
  match get k with | some o => m.set k o | none => m

theorem fill_get (get : Int → Option Bytes) (n : Int) (l : List Int) (m : Map Int Bytes) :
    (l.foldl (fillStep get) m).get n = if n ∈ l then (get n).or (m.get n) else m.get n := by
  induction l generalizing m with
  | nil => simp
  | cons k l ih =>
    rw [List.foldl_cons, ih]
    have hs : (fillStep get m k).get n = if n = k then (get n).or (m.get n) else m.get n := by
      unfold fillStep
      cases hg : get k with
      | none =>
        by_cases hk : n = k
        · rw [if_pos hk, hk, hg]; rfl
        · rw [if_neg hk]
      | some o =>
        simp only
        rw [Map.get_set]
        by_cases hk : n = k
        · rw [if_pos hk, if_pos hk, hk, hg]; rfl
        · rw [if_neg hk, if_neg hk]
    rw [hs]
    by_cases hk : n = k
    · have hm : n ∈ k :: l := by simp [hk]
      simp only [if_pos hk, if_pos hm]
      split
      · cases get n <;> rfl
      · rfl
    · rw [if_neg hk]
      simp [hk]

theorem newManip_get (get : Int → Option Bytes) (root : Bytes) (nums : List Int) (n : Int) (h : n ∈ nums) :
    (newManip get root nums).objects.get n = get n := by
  have e : (newManip get root nums).objects = nums.foldl (fillStep get) [] := rfl
  rw [e, fill_get, if_pos h]
  cases get n <;> rfl

theorem run_append (env : Writer.Env) (a b : List Writer.Op) :
    Writer.run env (a ++ b) = b.foldl (fun w op => (Writer.step env w op).1) (Writer.run env a) := by
  unfold Writer.run
  rw [List.foldl_append]

theorem fold_setObjects (env : Writer.Env) (l : List (Int × Bytes)) (w : Writer.Writer) (n : Int) :
    ((l.map fun e => Writer.Op.setObject e.1 (some e.2)).foldl (fun w op => (Writer.step env w op).1) w).objects.get n =
      match (l.reverse.find? fun e => decide (e.1 = n)) with
      | some e => some { content := some e.2, stream := none, dict := none }
      | none => w.objects.get n := by
  induction l generalizing w with
  | nil => rfl
  | cons e l ih =>
    rw [List.map_cons, List.foldl_cons, ih, List.reverse_cons, List.find?_append]
    cases l.reverse.find? fun e => decide (e.1 = n) with
    | some x => rfl
    | none =>
      simp only [Option.none_or, Writer.step, Writer.setObject]
      rw [Map.get_set]
      by_cases h : n = e.1
      · rw [if_pos h]; simp [List.find?, h]
      · rw [if_neg h]
        have : decide (e.1 = n) = false := by simp; exact fun h' => h h'.symm
        simp [List.find?, this]

theorem find_rev_nodup (m : Map Int Bytes) (h : m.keys.Nodup) (n : Int) :
    (m.reverse.find? fun e => decide (e.1 = n)).map (·.2) = m.get n := by
  have hr : (Map.keys (m.reverse : Map Int Bytes)).Nodup := by
    unfold Map.keys; rw [List.map_reverse]; exact (List.reverse_perm _).nodup_iff.2 h
  have e1 : (m.reverse.find? fun e => decide (e.1 = n)).map (·.2) = Map.get (m.reverse : Map Int Bytes) n := rfl
  rw [e1]
  cases hx : m.get n with
  | some v =>
    rw [Map.get_eq_some_iff m h] at hx
    rw [Map.get_eq_some_iff _ hr]
    exact List.mem_reverse.2 hx
  | none =>
    rw [Map.get_none_iff] at hx ⊢
    unfold Map.keys at *
    rw [List.map_reverse, List.mem_reverse]
    exact hx

theorem newManip_nodup (get : Int → Option Bytes) (root : Bytes) (nums : List Int) :
    (newManip get root nums).objects.keys.Nodup := by
  unfold newManip
  simp only
  have : ∀ (l : List Int) (m : Map Int Bytes), m.keys.Nodup →
      (Map.keys (l.foldl (fun m k => match get k with | some o => m.set k o | none => m) m)).Nodup := by
    intro l
    induction l with
    | nil => intro m h; exact h
    | cons k l ih =>
      intro m h
      rw [List.foldl_cons]
      cases get k with
      | none => exact ih m h
      | some o => exact ih _ (Map.nodup_set m k o h)
  exact this nums [] (by simp [Map.keys])

/-- What `Rebuild` hands to the writer for an object. -/
theorem rebuild_object (env : Writer.Env) (m : Manip) (h : m.objects.keys.Nodup) (info enc : Bytes) (n : Int) (o : Bytes)
    (ho : m.objects.get n = some o) :
    (Writer.run env (rebuildOps m info enc)).objects.get n = some { content := some o, stream := none, dict := none } := by
  have hrest : ∀ (x : Option Int) (f : Int → Writer.Op) (w : Writer.Writer),
      (∀ r w, (Writer.step env w (f r)).1.objects = w.objects) →
      ((match x with | some r => [f r] | none => []).foldl (fun w op => (Writer.step env w op).1) w).objects = w.objects := by
    intro x f w hf
    cases x with
    | none => rfl
    | some r => exact hf r w
  unfold rebuildOps
  rw [run_append]
  have e1 := hrest (parseObjectRef enc) Writer.Op.setEncryptRef
  have e2 := hrest (parseObjectRef info) Writer.Op.setInfo
  have e3 := hrest (parseObjectRef m.root) Writer.Op.setRoot
  erw [e1 _ (fun _ _ => rfl)]
  rw [run_append]
  erw [e2 _ (fun _ _ => rfl)]
  rw [run_append]
  erw [e3 _ (fun _ _ => rfl)]
  unfold Writer.run
  rw [fold_setObjects]
  have hf := find_rev_nodup m.objects h n
  rw [ho] at hf
  cases hx : m.objects.reverse.find? fun e => decide (e.1 = n) with
  | none => rw [hx] at hf; simp at hf
  | some e => rw [hx] at hf; simp at hf; simp [hf]

/-! ### Extraction -/

/-- The catalog's number in an extracted file. -/
def extractCatalog (env : Writer.Env) (sel : List (Int × Bytes)) : Int :=
  (Writer.run env (extractOps sel)).nextObjNum - 1

theorem extract_sets (sel : List (Int × Bytes)) (text : Int × Bytes → Bytes) :
    sel.flatMap (fun e => [Writer.Op.setObject e.1 (some e.2), Writer.Op.setObject e.1 (some (text e))]) =
      (sel.flatMap fun e => [(e.1, e.2), (e.1, text e)]).map fun e => Writer.Op.setObject e.1 (some e.2) := by
  induction sel with
  | nil => rfl
  | cons e sel ih => simp [List.flatMap_cons, ih]

theorem extract_objects (env : Writer.Env) (sel : List (Int × Bytes)) (k : Int) (h1 : k ≠ 1) (hs : k ∉ sel.map (·.1))
    (hc : k ≠ extractCatalog env sel) : (Writer.run env (extractOps sel)).objects.get k = none := by
  unfold extractCatalog at hc
  unfold extractOps at hc ⊢
  rw [extract_sets sel fun e => setDictValue e.2 b!"/Parent" (b!"1 0 R")] at hc ⊢
  rw [run_append] at hc ⊢
  generalize hw : Writer.run env _ = w at hc ⊢
  simp only [List.foldl_cons, List.foldl_nil, Writer.step, Writer.addObject] at hc ⊢
  rw [Map.get_set, if_neg (by omega)]
  rw [← hw, run_append]
  simp only [List.foldl_cons, List.foldl_nil, Writer.step, Writer.setObject]
  rw [Map.get_set, if_neg h1, run_append, fold_setObjects]
  have hnone : ((sel.flatMap fun e => [(e.1, e.2), (e.1, setDictValue e.2 b!"/Parent" (b!"1 0 R"))]).reverse.find?
      fun e => decide (e.1 = k)) = none := by
    rw [List.find?_eq_none]
    intro x hx
    simp only [List.mem_reverse, List.mem_flatMap, List.mem_cons, List.not_mem_nil, or_false] at hx
    obtain ⟨e, he, hx⟩ := hx
    have : x.1 = e.1 := by rcases hx with rfl | rfl <;> rfl
    simp only [this, decide_eq_true_eq]
    intro h
    exact hs (h ▸ List.mem_map_of_mem he)
  rw [hnone]
  simp only [Writer.run, List.foldl_cons, List.foldl_nil, Writer.step, Writer.addObject, Writer.newWriter]
  rw [Map.get_set, if_neg h1]
  rfl

theorem lastIndex_append {pat t : Bytes} {i : Nat} (s : Bytes) (h : lastIndex pat t = some i) :
    lastIndex pat (s ++ t) = some (s.length + i) := by
  induction s with
  | nil => simpa using h
  | cons c s ih =>
    rw [List.cons_append, lastIndex, ih]
    simp only [List.length_cons]
    congr 1
    omega

/-- Setting a reference does not replace the old one. -/
theorem set_reference_keeps {pre w rest : Bytes} {p : Nat} {value : Bytes} (hpre : NoOcc b!"/Parent" pre) (hw0 : w ≠ [])
    (hw : ∀ x ∈ w, White x) (hr : Ends rest) (hname : searchWith (reName b!"/Parent")
      (pre ++ (b!"/Parent" ++ (w ++ (natDec p ++ rest)))) = none)
    (hv : ∃ a b, value = a ++ 32 :: b ∧ Token a) (hg : b!">>" <:+: rest) :
    ∃ a b, rest = a ++ b ∧ setDictValue (pre ++ (b!"/Parent" ++ (w ++ (natDec p ++ rest)))) b!"/Parent" value =
      pre ++ (b!"/Parent" ++ (w ++ (natDec p ++ (a ++ (b!"/Parent" ++ (b!" " ++ (value ++ (b!" " ++ b)))))))) := by
  obtain ⟨a, b, hv, ha⟩ := hv
  have hsp : ∀ c ∈ ([32] : Bytes), White c := by intro c hc; simp at hc; subst hc; simp [White]
  have hx := extract_value (c := 47) (k := b!"Parent") (by decide) hpre hw0 hw (itoa_token p) hr
  have hrep : extractDictValue (replaceRe (fun t => (reTok b!"/Parent" t).map (·.2)) (fun _ => b!"/Parent" ++ b!" " ++ value) 0
      (pre ++ (b!"/Parent" ++ (w ++ (natDec p ++ rest))))) b!"/Parent" ≠ value := by
    rw [replaceRe_first (c := 47) (k := b!"Parent")
      (fun s h => reTok_prefix (by intro hn; rw [hn] at h; exact h rfl))
      (by intro d hd; simp at hd; subst hd; decide) hpre]
    have e : b!"/Parent" ++ (w ++ (natDec p ++ rest)) = (b!"/Parent" ++ (w ++ natDec p)) ++ rest := by simp
    rw [e, replaceRe_here (by simp)]
    · generalize replaceRe _ _ 0 rest = tail
      have e2 : pre ++ (b!"/Parent" ++ b!" " ++ value ++ tail) =
          pre ++ ((47 :: b!"Parent") ++ ([32] ++ (a ++ ((32 :: b) ++ tail)))) := by rw [hv]; simp
      rw [e2, extract_value (c := 47) (k := b!"Parent") (by decide) hpre (by simp) hsp ha
        (by intro c hc; simp at hc; subst hc; simp [White])]
      rw [hv]
      intro h
      have := congrArg List.length h
      simp at this
    · have ht : reTok b!"/Parent" (b!"/Parent" ++ (w ++ (natDec p ++ rest))) = some (natDec p, rest) :=
        reTok_value hw0 hw (itoa_token p).1 (itoa_token p).2.1 hr
      rw [← e, ht]
      rfl
  have hspan := arraySpan_none (c := 47) (k := b!"Parent") (rest := rest) (by decide) hpre (white_ne hw) (itoa_token p).1
    (itoa_token p).2.2 (itoa_token p).head_ws
  cases hl : lastIndex b!">>" rest with
  | none => exact absurd hg (noOcc_iff_infix.1 (lastIndex_none hl))
  | some i =>
    refine ⟨rest.take i, rest.drop i, by simp, ?_⟩
    have e3 : pre ++ (b!"/Parent" ++ (w ++ (natDec p ++ rest))) = (pre ++ (b!"/Parent" ++ (w ++ natDec p))) ++ rest := by simp
    have hli : lastIndex b!">>" (pre ++ (b!"/Parent" ++ (w ++ (natDec p ++ rest)))) =
        some ((pre ++ (b!"/Parent" ++ (w ++ natDec p))).length + i) := by
      rw [e3]; exact lastIndex_append _ hl
    unfold setDictValue
    simp only
    have hx' : ¬ extractDictValue (pre ++ (b!"/Parent" ++ (w ++ (natDec p ++ rest)))) b!"/Parent" = [] := by
      rw [show natDec p = itoa (p : Int) from rfl, hx]; exact (itoa_token p).1
    rw [if_neg hx', if_neg (by simp only [Bool.and_eq_true, beq_iff_eq]; exact fun h => hrep h.2), hname]
    simp only [Option.isSome_none, Bool.false_eq_true, if_false]
    have hspan' : arraySpan (pre ++ (b!"/Parent" ++ (w ++ (natDec p ++ rest)))) b!"/Parent" = none := hspan
    rw [hspan']
    simp only
    rw [hli]
    simp only
    rw [e3, List.take_append, List.drop_append, List.take_of_length_le (by omega), List.drop_of_length_le (by omega)]
    simp

end Pdfer.Manipulate
