import Verif.Proofs.Protect
import Verif.Proofs.Writer

/-! What the bytes of an encrypted file depend on. -/

namespace Pdfer.Confidential

open Pdfer.Go Pdfer.Spec.Protect
open Pdfer.Writer

/-- A dictionary without its /Length. -/
def strip (d : Dict) : Dict := d.filter (fun e => e.1 ≠ b!"Length")

/-- An object without the data of its stream. -/
def bare (o : Obj) : Obj := { o with stream := o.stream.map fun _ => [] }

def bareObjs (m : Map Int Obj) : Map Int Obj := m.map fun e => (e.1, bare e.2)

/-- A writer without the data of the streams and their lengths. -/
def blank (w : Writer) : Writer := { w with objects := bareObjs w.objects, heap := w.heap.map strip }

theorem bareObjs_set (m : Map Int Obj) (k : Int) (o : Obj) : bareObjs (m.set k o) = (bareObjs m).set k (bare o) := by
  simp only [bareObjs, Map.set, List.map_cons, List.filter_map]
  rfl

theorem bareObjs_get (m : Map Int Obj) (k : Int) : (bareObjs m).get k = (m.get k).map bare := by
  induction m with
  | nil => rfl
  | cons e m ih =>
    simp only [bareObjs, Map.get, List.map_cons, List.find?_cons] at ih ⊢
    by_cases h : e.1 = k
    · simp [h]
    · simp only [h, decide_false]
      exact ih

theorem bareObjs_keys (m : Map Int Obj) : (bareObjs m).keys = m.keys := by
  simp [bareObjs, Map.keys, Function.comp_def]

theorem strip_set_length (d : Dict) (v : PVal) : strip (d.set b!"Length" v) = strip d := by
  simp [strip, Map.set]

theorem strip_set (d : Dict) (k : Bytes) (v : PVal) (hk : k ≠ b!"Length") : strip (d.set k v) = (strip d).set k v := by
  simp only [strip, Map.set, List.filter_cons]
  rw [if_pos (by simpa using hk), List.filter_filter, List.filter_filter]
  congr 1
  apply List.filter_congr
  intro e _
  exact Bool.and_comm _ _

theorem set_strip (d d' : Dict) (h : strip d = strip d') (v : PVal) : d.set b!"Length" v = d'.set b!"Length" v := by
  unfold strip at h
  simp only [Map.set, h]

theorem strip_getD (heap : List Dict) (a : Nat) : (heap.map strip).getD a [] = strip (heap.getD a []) := by
  rw [List.getD_eq_getElem?_getD, List.getD_eq_getElem?_getD, List.getElem?_map]
  cases heap[a]? <;> rfl

theorem zip_iff (data data' : Option Bytes) (h : hideData data = hideData data') :
    decide ((data.getD []).length > 0) = decide ((data'.getD []).length > 0) ∧ data.isSome = data'.isSome := by
  unfold hideData at h
  cases data with
  | none => cases data' with
    | none => exact ⟨rfl, rfl⟩
    | some s => simp at h
  | some t => cases data' with
    | none => simp at h
    | some s =>
      simp only [Option.map_some, Option.some.injEq] at h
      refine ⟨?_, rfl⟩
      simp only [Option.getD_some]
      by_cases h1 : t.length > 0
      · by_cases h2 : s.length > 0
        · simp [h1, h2]
        · rw [if_pos h1, if_neg h2] at h; simp at h
      · by_cases h2 : s.length > 0
        · rw [if_neg h1, if_pos h2] at h; simp at h
        · simp [h1, h2]

/-- The new object and the dictionaries, apart from data and length, are the same. -/
theorem prepare_same (env : Env) (w w' : Writer) (hw : blank w = blank w') (m : Dict) (data data' : Option Bytes) (c : Bool)
    (hd : hideData data = hideData data') :
    bare ⟨none, (prepareStream env w (.fresh m) data c).1, some (prepareStream env w (.fresh m) data c).2.2⟩ =
      bare ⟨none, (prepareStream env w' (.fresh m) data' c).1, some (prepareStream env w' (.fresh m) data' c).2.2⟩ ∧
    (prepareStream env w (.fresh m) data c).2.1.map strip = (prepareStream env w' (.fresh m) data' c).2.1.map strip := by
  have hh : w.heap.map strip = w'.heap.map strip := (congrArg Writer.heap hw :)
  have hl : w.heap.length = w'.heap.length := by simpa using congrArg List.length hh
  obtain ⟨h1, h2⟩ := zip_iff data data' hd
  simp only [prepareStream, h1, List.map_append, List.map_cons, List.map_nil, strip_set_length, hh, hl, and_true]
  unfold bare
  simp only [Obj.mk.injEq, and_true, true_and]
  split
  · rfl
  · cases data <;> cases data' <;> simp_all

theorem step_same (env : Env) (w w' : Writer) (hw : blank w = blank w') (op op' : Op) (h : hide op = hide op') (hf : FreshDict op)
    (hn : op ≠ .write) : blank (step env w op).1 = blank (step env w' op').1 := by
  have ho : bareObjs w.objects = bareObjs w'.objects := (congrArg Writer.objects hw :)
  have hh : w.heap.map strip = w'.heap.map strip := (congrArg Writer.heap hw :)
  have e1 : w.nextObjNum = w'.nextObjNum := (congrArg Writer.nextObjNum hw :)
  have e2 : w.rootRef = w'.rootRef := (congrArg Writer.rootRef hw :)
  have e3 : w.infoRef = w'.infoRef := (congrArg Writer.infoRef hw :)
  have e4 : w.encryptRef = w'.encryptRef := (congrArg Writer.encryptRef hw :)
  have e5 : w.fileID = w'.fileID := (congrArg Writer.fileID hw :)
  have e6 : w.pdfVersion = w'.pdfVersion := (congrArg Writer.pdfVersion hw :)
  have e7 : w.useXRefStream = w'.useXRefStream := (congrArg Writer.useXRefStream hw :)
  have e8 : w.useObjectStream = w'.useObjectStream := (congrArg Writer.useObjectStream hw :)
  cases op with
  | addStream d data c =>
    cases op' with
    | addStream d' data' c' =>
      simp only [hide, Op.addStream.injEq] at h
      obtain ⟨rfl, h2, rfl⟩ := h
      obtain ⟨m, rfl, _⟩ := hf
      obtain ⟨k1, k2⟩ := prepare_same env w w' hw m data data' c h2
      simp only [step, addStreamObject, blank, bareObjs_set, k1, k2, e1, e2, e3, e4, e5, e6, e7, e8, ho]
    | _ => simp [hide] at h
  | setStream n d data c =>
    cases op' with
    | setStream n' d' data' c' =>
      simp only [hide, Op.setStream.injEq] at h
      obtain ⟨rfl, rfl, h2, rfl⟩ := h
      obtain ⟨m, rfl, _⟩ := hf
      obtain ⟨k1, k2⟩ := prepare_same env w w' hw m data data' c h2
      simp only [step, setStreamObject, blank, bareObjs_set, k1, k2, e1, e2, e3, e4, e5, e6, e7, e8, ho]
    | _ => simp [hide] at h
  | write => exact absurd rfl hn
  | _ =>
    cases op' <;> simp only [hide, reduceCtorEq] at h
    all_goals first
      | (cases h; simp only [step, addObject, setObject, blank, bareObjs_set, e1, e2, e3, e4, e5, e6, e7, e8, ho, hh])

theorem run_same (env : Env) (ops ops' : List Op) (h : ops.map hide = ops'.map hide) (hf : ∀ op ∈ ops, FreshDict op) (hn : .write ∉ ops) :
    blank (run env ops) = blank (run env ops') := by
  have key : ∀ (l l' : List Op) (w w' : Writer), l.map hide = l'.map hide → (∀ op ∈ l, FreshDict op) → .write ∉ l → blank w = blank w' →
      blank (l.foldl (fun w op => (step env w op).1) w) = blank (l'.foldl (fun w op => (step env w op).1) w') := by
    intro l
    induction l with
    | nil =>
      intro l' w w' h _ _ hb
      cases l' with
      | nil => exact hb
      | cons => simp at h
    | cons op l ih =>
      intro l' w w' h hf hn hb
      cases l' with
      | nil => simp at h
      | cons op' l' =>
        simp only [List.map_cons, List.cons.injEq] at h
        rw [List.foldl_cons, List.foldl_cons]
        exact ih l' _ _ h.2 (fun o ho => hf o (by simp [ho])) (fun hm => hn (by simp [hm]))
          (step_same env w w' hb op op' h.1 (hf op (by simp)) (fun e => hn (by simp [e])))
  exact key ops ops' _ _ h hf hn rfl

/-- The text of an object whose data is replaced by its cipher text. -/
theorem objText_cipher (env : Env) (enc : Int → Bytes → Option Bytes) (hc : env.crypt = some enc) (heap heap' : List Dict)
    (hh : heap.map strip = heap'.map strip) (n : Int) (o o' : Obj) (ho : bare o = bare o')
    (he : ∀ s s', o.stream = some s → o'.stream = some s' → ∃ c, enc n s = some c ∧ enc n s' = some c) :
    (objText env heap n o).1 = (objText env heap' n o').1 ∧
      (objText env heap n o).2.map strip = (objText env heap' n o').2.map strip := by
  have hs : o.stream.map (fun _ => ([] : Bytes)) = o'.stream.map (fun _ => []) := (congrArg Obj.stream ho :)
  have hcont : o.content = o'.content := (congrArg Obj.content ho :)
  have hdict : o.dict = o'.dict := (congrArg Obj.dict ho :)
  have hlen : heap.length = heap'.length := by simpa using congrArg List.length hh
  unfold objText
  rw [hcont, hdict, hc]
  cases h1 : o.stream with
  | none =>
    rw [h1] at hs
    cases h2 : o'.stream with
    | none => exact ⟨rfl, hh⟩
    | some s' => rw [h2] at hs; simp at hs
  | some s =>
    rw [h1] at hs
    cases h2 : o'.stream with
    | none => rw [h2] at hs; simp at hs
    | some s' =>
      obtain ⟨c, k1, k2⟩ := he s s' h1 h2
      simp only [k1, k2]
      generalize o'.dict.getD 0 = a
      have hst : strip (heap.getD a []) = strip (heap'.getD a []) := by rw [← strip_getD, ← strip_getD, hh]
      have hset := set_strip _ _ hst (.int c.length)
      rw [hset]
      constructor
      · congr 5
        by_cases hl : a < heap.length
        · rw [getD_set_eq _ _ _ hl, getD_set_eq _ _ _ (by omega)]
        · rw [List.set_eq_of_length_le (by omega), List.set_eq_of_length_le (by omega), List.getD_eq_getElem?_getD, List.getD_eq_getElem?_getD,
            List.getElem?_eq_none (by omega), List.getElem?_eq_none (by omega)]
      · rw [List.map_set, List.map_set, hh]

theorem writeObjs_cipher (env : Env) (enc : Int → Bytes → Option Bytes) (hc : env.crypt = some enc) : ∀ (l l' : List (Int × Obj)) (pos : Nat)
    (heap heap' : List Dict), heap.map strip = heap'.map strip → l.map (fun e => (e.1, bare e.2)) = l'.map (fun e => (e.1, bare e.2)) →
    (∀ n o o' s s', (n, o) ∈ l → (n, o') ∈ l' → o.stream = some s → o'.stream = some s' → ∃ c, enc n s = some c ∧ enc n s' = some c) →
    (writeObjs env (fun _ => false) pos heap l).1 = (writeObjs env (fun _ => false) pos heap' l').1 ∧
      (writeObjs env (fun _ => false) pos heap l).2.1 = (writeObjs env (fun _ => false) pos heap' l').2.1 := by
  intro l
  induction l with
  | nil =>
    intro l' pos heap heap' _ h _
    cases l' with
    | nil => exact ⟨rfl, rfl⟩
    | cons => simp at h
  | cons e l ih =>
    intro l' pos heap heap' hh h he
    cases l' with
    | nil => simp at h
    | cons e' l' =>
      simp only [List.map_cons, List.cons.injEq, Prod.mk.injEq] at h
      obtain ⟨⟨h1, h2⟩, h3⟩ := h
      obtain ⟨n, o⟩ := e
      obtain ⟨n', o'⟩ := e'
      simp only at h1 h2
      subst h1
      obtain ⟨k1, k2⟩ := objText_cipher env enc hc heap heap' hh n o o' h2
        (fun s s' a b => he n o o' s s' (by simp) (by simp) a b)
      obtain ⟨i1, i2⟩ := ih l' (pos + (objText env heap n o).1.length) _ _ k2 h3
        (fun m p p' s s' a b => he m p p' s s' (by simp [a]) (by simp [b]))
      simp only [writeObjs, Bool.false_eq_true, if_false]
      rw [← k1, i1, i2]
      exact ⟨rfl, rfl⟩

theorem sorted_same (env : Env) (w w' : Writer) (h : blank w = blank w') :
    (sortedObjs env w).map (fun e => (e.1, bare e.2)) = (sortedObjs env w').map (fun e => (e.1, bare e.2)) := by
  have ho : bareObjs w.objects = bareObjs w'.objects := (congrArg Writer.objects h :)
  have hk : w.objects.keys = w'.objects.keys := by rw [← bareObjs_keys w.objects, ← bareObjs_keys w'.objects, ho]
  simp only [sortedObjs, hk, List.map_filterMap]
  congr 1
  funext n
  have := congrArg (fun m => Map.get m n) ho
  simp only [bareObjs_get] at this
  cases h1 : w.objects.get n <;> cases h2 : w'.objects.get n <;> simp_all

/-- The file depends on the data of the streams only through the cipher texts. -/
theorem write_same (env : Env) (hfair : ∀ l, (env.order l).Perm l) (enc : Int → Bytes → Option Bytes) (hc : env.crypt = some enc)
    (w w' : Writer) (h : blank w = blank w') (hx : w.useXRefStream = false) (ho : w.useObjectStream = false)
    (he : ∀ n o o' s s', w.objects.get n = some o → w'.objects.get n = some o' → o.stream = some s → o'.stream = some s' →
      ∃ c, enc n s = some c ∧ enc n s' = some c) : (write env w).1 = (write env w').1 := by
  have hh : w.heap.map strip = w'.heap.map strip := (congrArg Writer.heap h :)
  have e1 : w.nextObjNum = w'.nextObjNum := (congrArg Writer.nextObjNum h :)
  have e6 : w.pdfVersion = w'.pdfVersion := (congrArg Writer.pdfVersion h :)
  have e7 : w.useXRefStream = w'.useXRefStream := (congrArg Writer.useXRefStream h :)
  have e8 : w.useObjectStream = w'.useObjectStream := (congrArg Writer.useObjectStream h :)
  have ht : trailer w = trailer w' := by
    have e2 : w.rootRef = w'.rootRef := (congrArg Writer.rootRef h :)
    have e3 : w.infoRef = w'.infoRef := (congrArg Writer.infoRef h :)
    have e4 : w.encryptRef = w'.encryptRef := (congrArg Writer.encryptRef h :)
    have e5 : w.fileID = w'.fileID := (congrArg Writer.fileID h :)
    simp only [trailer, e1, e2, e3, e4, e5]
  obtain ⟨k1, k2⟩ := writeObjs_cipher env enc hc (sortedObjs env w) (sortedObjs env w') (header w'.pdfVersion).length w.heap w'.heap hh
    (sorted_same env w w' h) (fun n o o' s s' a b => he n o o' s s' ((sortedObjs_mem env hfair w n o).1 a) ((sortedObjs_mem env hfair w' n o').1 b))
  rw [write_table env w hx ho, write_table env w' (e7 ▸ hx) (e8 ▸ ho)]
  simp only [tableBody, e6, e1, ht, k1, k2]

end Pdfer.Confidential
