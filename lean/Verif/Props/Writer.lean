import Mathlib.Data.List.Perm.Subperm
import Mathlib.Data.List.Nodup
import Mathlib.Tactic.ByContra
import Verif.Proofs.XRefTable

/-! Properties C07–C14: `PDFWriter` (core/write/writer.go), table mode, and the table readers. -/

namespace Pdfer.Props

open Pdfer.Writer Pdfer.Spec Pdfer.Go

/-- An environment without compression or encryption, for examples. -/
def plainEnv : Env := { z := id, crypt := none, order := id }

theorem plainEnv_fair : FairOrder plainEnv := fun l => List.Perm.refl l

/-! ### C07 -/

/-- C07: after any history of calls (including writes), the number an Add call hands out is positive and
was neither handed out nor named by the caller before. -/
theorem C07_fresh_numbers (env : Env) (ops : List Op) (op : Op) (n : Int)
    (h : (step env (run env ops) op).2 = some n) :
    1 ≤ n ∧ n ∉ usedNumbers env newWriter ops := by
  obtain ⟨h1, _⟩ := step_ret env _ op n h
  refine ⟨by rw [h1]; exact (inv_run env ops).next_pos, ?_⟩
  intro hm
  have := used_lt env newWriter ops n hm
  rw [h1] at this
  exact absurd this (Int.lt_irrefl _)

/-- C07: so an Add call never overwrites an object. -/
theorem C07_add_never_overwrites (env : Env) (ops : List Op) (op : Op) (n : Int)
    (h : (step env (run env ops) op).2 = some n) : (run env ops).objects.get n = none := by
  obtain ⟨h1, _⟩ := step_ret env _ op n h
  rw [Map.get_none_iff]
  intro hm
  have := (inv_run env ops).lt_next n hm
  omega

/-- C07: all numbers handed out in one history are different. -/
theorem C07_handed_out_distinct (env : Env) (ops : List Op) : (handedOut env newWriter ops).Nodup := by
  have key : ∀ (ops : List Op) (w : Writer), (handedOut env w ops).Nodup ∧
      ∀ n ∈ handedOut env w ops, w.nextObjNum ≤ n := by
    intro ops
    induction ops with
    | nil => intro w; simp [handedOut]
    | cons op ops ih =>
      intro w
      obtain ⟨h1, h2⟩ := ih (step env w op).1
      simp only [handedOut]
      cases hr : (step env w op).2 with
      | none =>
        refine ⟨by simpa using h1, ?_⟩
        intro n hn
        have := h2 n (by simpa using hn)
        have := next_mono env w op
        omega
      | some m =>
        obtain ⟨h3, h4⟩ := step_ret env w op m hr
        refine ⟨?_, ?_⟩
        · simp only [Option.toList, List.cons_append, List.nil_append, List.nodup_cons]
          refine ⟨?_, h1⟩
          intro hm
          have := h2 m hm
          omega
        · intro n hn
          simp only [Option.toList, List.cons_append, List.nil_append, List.mem_cons] at hn
          rcases hn with rfl | hn
          · omega
          · have := h2 n hn; omega
  exact (key ops newWriter).1

/-- Non-vacuity: a history with gaps, overwriting and a write. -/
def hist1 : List Op :=
  [.addObject (some b!"<</Type/Catalog>>"), .setObject 7 (some b!"(seven)"), .addObject none, .write,
   .addStream (.fresh [(b!"Type", .str b!"/X")]) (some b!"data") false, .setObject 1 (some b!"<<>>"), .setRoot 1]

example : usedNumbers plainEnv newWriter hist1 = [1, 7, 8, 9, 1] := by decide +kernel
example : (step plainEnv (run plainEnv hist1) (.addObject (some b!"x"))).2 = some 10 := by decide +kernel

/-! ### C08 -/

/-- C08: for every history and every number in play, GetObject returns the content of the most recent
Add/Set call for it (an error if that call passed nil). -/
theorem C08_reads_last_write (env : Env) (ops : List Op) (n : Int) (h : n ∈ usedNumbers env newWriter ops) :
    getObject (run env ops) n = lastStored (stores env newWriter ops) n :=
  get_used env ops n h

/-- C08: if object streams are never enabled this holds for every number, so a number that was never
stored gives an error. -/
theorem C08_unknown_number_is_error (env : Env) (ops : List Op) (n : Int)
    (hno : ∀ on, .useObjectStream on ∈ ops → on = false) :
    getObject (run env ops) n = lastStored (stores env newWriter ops) n ∧
    ((∀ c, (n, c) ∉ stores env newWriter ops) → getObject (run env ops) n = none) := by
  refine ⟨get_all env ops n hno, ?_⟩
  intro h
  rw [get_all env ops n hno]
  have := lastStored_append [] (stores env newWriter ops) n (by
    intro hm
    obtain ⟨⟨a, c⟩, he, rfl⟩ := List.mem_map.1 hm
    exact h c he)
  simpa [lastStored] using this

example : getObject (run plainEnv hist1) 1 = some b!"<<>>" ∧ getObject (run plainEnv hist1) 9 = some b!"data" ∧
    getObject (run plainEnv hist1) 8 = none ∧ getObject (run plainEnv hist1) 3 = none := by decide +kernel
example : ∀ on, .useObjectStream on ∈ hist1 → on = false := by simp [hist1]

/-! ### C09, C10 -/

/-- Helper: the text of an object at an offset is the complete indirect object there. -/
theorem objectAt_of_objText {env : Env} {heap : List Dict} {n : Int} {o : Obj} {file : Bytes} {p : Nat}
    (h : (objText env heap n o).1 <+: file.drop p) : ObjectAt env file n o p := by
  unfold ObjectAt
  unfold objText at h
  cases hs : o.stream with
  | none => simpa [hs] using h
  | some s =>
    simp only [hs] at h
    cases hc : env.crypt with
    | none =>
      simp only [hc] at h
      exact ⟨_, by simpa [List.append_assoc] using h⟩
    | some enc =>
      cases he : enc n s with
      | none =>
        simp only [hc, he] at h
        refine ⟨formatDictionary (heap.getD (o.dict.getD 0) []), ?_⟩
        simpa only [List.append_assoc, he, Option.getD_none, List.cons_append, List.nil_append] using h
      | some e =>
        simp only [hc, he] at h
        refine ⟨formatDictionary ((heap.set (o.dict.getD 0)
          ((heap.getD (o.dict.getD 0) []).set b!"Length" (.int e.length))).getD (o.dict.getD 0) []), ?_⟩
        simpa only [List.append_assoc, he, Option.getD_some, List.cons_append, List.nil_append] using h

/-- C09 (and the file layout behind C10): in table mode, after any history, the written file is
`pre ++ table ++ trailer ++ "startxref\n" ++ |pre| ++ "\n%%EOF\n"`; the table has one entry per number below
/Size; every stored object `n ≥ 1` has the in-use entry of an offset at which its complete text stands in
the file; and entries are 20 bytes as long as the file is below 10^10 bytes. -/
theorem C09_offsets_exact (env : Env) (henv : FairOrder env) (ops : List Op)
    (hx : (run env ops).useXRefStream = false) (ho : (run env ops).useObjectStream = false) :
    ∃ (pre : Bytes) (entries : List Bytes) (trail : Bytes),
      (write env (run env ops)).1 =
        pre ++ b!"xref\n0 " ++ itoa (run env ops).nextObjNum ++ b!"\n" ++ entries.flatten ++ trail ++
          b!"startxref\n" ++ natDec pre.length ++ b!"\n%%EOF\n" ∧
      (entries.length : Int) = (run env ops).nextObjNum ∧
      (pre.length ≤ 10 ^ 10 → ∀ e ∈ entries, e.length = 20) ∧
      (∀ n o, 1 ≤ n → (run env ops).objects.get n = some o →
        ∃ p, p < pre.length ∧ entries[n.toNat]? = some (padDec 10 p ++ b!" 00000 n \n") ∧
          ObjectAt env pre n o p) := by
  generalize hw : run env ops = w at *
  have hi : Inv w := hw ▸ inv_run env ops
  have hp := tableBody_keys env henv w
  have hnd : (tableBody env w).2.1.keys.Nodup := hp.nodup_iff.2 hi.nodup
  have hlt : ∀ e ∈ (tableBody env w).2.1, e.2 < (header w.pdfVersion ++ (tableBody env w).1).length := by
    rintro ⟨n, p⟩ he
    obtain ⟨_, _, k, _, _, hk, _, hkl⟩ := writeObjs_at env (fun _ => false) _ w.heap (sortedObjs env w)
      (fun _ => True) trivial (fun _ _ _ _ _ => trivial) n p he
    simp only [List.length_append]
    unfold tableBody
    omega
  refine ⟨header w.pdfVersion ++ (tableBody env w).1,
    (padDec 10 0 ++ b!" " ++ padDec 5 65535 ++ b!" f \n") ::
      (List.range (w.nextObjNum.toNat - 1)).map (fun k => tableLine (tableBody env w).2.1 (k + 1)),
    trailer w, ?_, ?_, ?_, ?_⟩
  · rw [write_table env w hx ho]
    simp [xrefTable, startxref, List.append_assoc]
  · have := hi.next_pos
    simp; omega
  · intro hlen e he
    rcases List.mem_cons.1 he with rfl | he
    · decide
    · obtain ⟨k, _, rfl⟩ := List.mem_map.1 he
      exact tableLine_length _ _ (fun e he => Nat.lt_of_lt_of_le (hlt e he) hlen)
  · intro n o hn hg
    have hk : n ∈ (tableBody env w).2.1.keys := hp.mem_iff.2 ((Map.get_isSome_iff _ _).1 (by rw [hg]; rfl))
    obtain ⟨p, hpg⟩ := Option.isSome_iff_exists.1 ((Map.get_isSome_iff _ _).2 hk)
    have hmem := (Map.get_eq_some_iff _ hnd n p).1 hpg
    refine ⟨p, hlt _ hmem, ?_, ?_⟩
    · have hlt' := hi.lt_next n ((Map.get_isSome_iff _ _).1 (by rw [hg]; rfl))
      obtain ⟨j, hj⟩ : ∃ j : Nat, n = (j + 1 : Nat) := ⟨(n - 1).toNat, by omega⟩
      subst hj
      rw [show ((j + 1 : Nat) : Int).toNat = j + 1 by omega, List.getElem?_cons_succ, List.getElem?_map,
        List.getElem?_range (by omega)]
      simp only [Option.map_some, tableLine, hpg]
      rw [show padDec 5 0 = b!"00000" from rfl]
      simp
    · obtain ⟨o', heap1, k, hmo, _, hpk, hpre, _⟩ := writeObjs_at env (fun _ => false) _ w.heap (sortedObjs env w)
        (fun _ => True) trivial (fun _ _ _ _ _ => trivial) n p hmem
      have ho' : o' = o := by
        have := (sortedObjs_mem env henv w n o').1 hmo
        rw [hg] at this; simpa using this.symm
      subst ho'
      have hat : (objText env heap1 n o').1 <+: (header w.pdfVersion ++ (tableBody env w).1).drop p := by
        rw [hpk]; exact drop_append_prefix hpre
      exact objectAt_of_objText hat

/-- The hypothesis is met by a concrete writer with several objects, and the file is the expected one. -/
def hist2 : List Op :=
  [.addObject (some b!"<</Type/Catalog>>"), .setObject 3 (some b!"(three)"),
   .addStream (.fresh [(b!"/Type", .str b!"/X")]) (some b!"data") false, .setRoot 1]

example : (run plainEnv hist2).useXRefStream = false ∧ (run plainEnv hist2).useObjectStream = false := by decide +kernel
example : (write plainEnv (run plainEnv hist2)).1 =
    b!"%PDF-1.7\n" ++ [0x25, 0xE2, 0xE3, 0xCF, 0xD3, 0x0A] ++
    b!"1 0 obj\n<</Type/Catalog>>\nendobj\n3 0 obj\n(three)\nendobj\n4 0 obj\n<</Type /X /Length 4 >>\nstream\ndata\nendstream\nendobj\nxref\n0 5\n0000000000 65535 f \n0000000015 00000 n \n0000000000 00001 f \n0000000048 00000 n \n0000000071 00000 n \ntrailer\n<<\n/Size 5\n/Root 1 0 R\n>>\nstartxref\n132\n%%EOF\n" := by
  decide +kernel

/-- C10: in table mode the table has exactly one entry per number below /Size; a number `n ≥ 1` with a
stored object has an in-use entry, one without has the free entry, and number 0 has the free-list head. -/
theorem C10_free_entries (env : Env) (henv : FairOrder env) (ops : List Op)
    (hx : (run env ops).useXRefStream = false) (ho : (run env ops).useObjectStream = false) :
    ∃ (pre : Bytes) (entries : List Bytes) (post : Bytes),
      (write env (run env ops)).1 =
        pre ++ b!"xref\n0 " ++ itoa (run env ops).nextObjNum ++ b!"\n" ++ entries.flatten ++
          b!"trailer\n<<\n/Size " ++ itoa (run env ops).nextObjNum ++ b!"\n" ++ post ∧
      (entries.length : Int) = (run env ops).nextObjNum ∧
      entries[0]? = some b!"0000000000 65535 f \n" ∧
      ∀ n : Int, 1 ≤ n → n < (run env ops).nextObjNum →
        (((run env ops).objects.get n).isSome → ∃ p, entries[n.toNat]? = some (padDec 10 p ++ b!" 00000 n \n")) ∧
        ((run env ops).objects.get n = none → entries[n.toNat]? = some b!"0000000000 00001 f \n") := by
  generalize hw : run env ops = w at *
  have hi : Inv w := hw ▸ inv_run env ops
  have hp := tableBody_keys env henv w
  refine ⟨header w.pdfVersion ++ (tableBody env w).1,
    (padDec 10 0 ++ b!" " ++ padDec 5 65535 ++ b!" f \n") ::
      (List.range (w.nextObjNum.toNat - 1)).map (fun k => tableLine (tableBody env w).2.1 (k + 1)),
    (trailer w).drop ((b!"trailer\n<<\n/Size ").length + (itoa w.nextObjNum).length + 1) ++
      startxref ((header w.pdfVersion).length + (tableBody env w).1.length), ?_, ?_, ?_, ?_⟩
  · rw [write_table env w hx ho]
    have ht : trailer w = b!"trailer\n<<\n/Size " ++ itoa w.nextObjNum ++ b!"\n" ++
        (trailer w).drop ((b!"trailer\n<<\n/Size ").length + (itoa w.nextObjNum).length + 1) := by
      have : b!"trailer\n<<\n/Size " ++ itoa w.nextObjNum ++ b!"\n" <+: trailer w := by
        unfold trailer
        simp only [List.append_assoc]
        simp
      obtain ⟨r, hr⟩ := this
      rw [← hr]
      congr 1
      rw [List.drop_append_of_le_length (by simp; omega), List.drop_of_length_le (by simp; omega), List.nil_append]
    conv => lhs; simp only; rw [ht]
    simp [xrefTable, List.append_assoc]
  · have := hi.next_pos
    simp; omega
  · rfl
  · intro n hn hlt
    obtain ⟨j, hj⟩ : ∃ j : Nat, n = (j + 1 : Nat) := ⟨(n - 1).toNat, by omega⟩
    subst hj
    have hget : ∀ l : Bytes, ((l :: (List.range (w.nextObjNum.toNat - 1)).map
        (fun k => tableLine (tableBody env w).2.1 (k + 1))))[((j + 1 : Nat) : Int).toNat]? =
        some (tableLine (tableBody env w).2.1 (j + 1)) := by
      intro l
      rw [show ((j + 1 : Nat) : Int).toNat = j + 1 by omega, List.getElem?_cons_succ, List.getElem?_map,
        List.getElem?_range (by omega)]
      rfl
    rw [hget]
    refine ⟨fun hs => ?_, fun hs => ?_⟩
    · have hk := hp.mem_iff.2 ((Map.get_isSome_iff _ _).1 hs)
      obtain ⟨p, hpg⟩ := Option.isSome_iff_exists.1 ((Map.get_isSome_iff _ _).2 hk)
      refine ⟨p, ?_⟩
      simp only [tableLine, hpg]
      rw [show padDec 5 0 = b!"00000" from rfl]
      simp
    · have hk : (tableBody env w).2.1.get ((j + 1 : Nat) : Int) = none := by
        rw [Map.get_none_iff, hp.mem_iff, ← Map.get_none_iff]; exact hs
      simp only [tableLine, hk]
      rfl

/-- C10: if no Write in cross-reference-stream mode happened and no number was set aside (page builder, bookmarks), /Size is one
more than the largest stored number (or 1 when nothing is stored). -/
theorem C10_size_is_max_plus_one (env : Env) (ops : List Op) (hr : .reserve ∉ ops)
    (h : ∀ ops' tl, ops = ops' ++ .write :: tl → (run env ops').useXRefStream = false ∧ (run env ops').useObjectStream = false) :
    (∀ n ∈ (run env ops).objects.keys, n < (run env ops).nextObjNum) ∧
    ((run env ops).nextObjNum = 1 ∨ (run env ops).nextObjNum - 1 ∈ (run env ops).objects.keys) := by
  refine ⟨(inv_run env ops).lt_next, ?_⟩
  induction ops using snoc_induction with
  | nil => exact Or.inl rfl
  | snoc ops op ih =>
    have ih := ih (fun hh => hr (by simp [hh])) (fun ops' tl e => h ops' (tl ++ [op]) (by rw [e]; simp))
    rw [run_append]
    have hset : ∀ (w' : Writer) (n : Int) (o : Obj), w'.objects = (run env ops).objects.set n o →
        (w'.nextObjNum = n + 1 ∨ w'.nextObjNum = (run env ops).nextObjNum) →
        w'.nextObjNum = 1 ∨ w'.nextObjNum - 1 ∈ w'.objects.keys := by
      intro w' n o e1 e2
      rw [e1, Map.mem_keys_set]
      rcases e2 with e2 | e2
      · right; left; omega
      · rcases ih with ih | ih
        · left; omega
        · right; right; rw [e2]; exact ih
    cases op with
    | addObject c => exact hset _ _ _ rfl (Or.inl rfl)
    | addStream d data c => exact hset _ _ _ rfl (Or.inl rfl)
    | setObject n c =>
      refine hset _ n _ rfl ?_
      simp only [step, setObject]; split <;> simp
    | setStream n d data c =>
      refine hset _ n _ rfl ?_
      simp only [step, setStreamObject]; split <;> simp
    | write =>
      obtain ⟨h1, h2⟩ := h ops [] rfl
      have : (step env (run env ops) .write).1 = _ := congrArg Prod.snd (write_table env (run env ops) h1 h2)
      rw [this]
      exact ih
    | reserve => exact absurd (by simp) hr
    | _ => exact ih

example : Op.reserve ∉ hist1 := by simp [hist1]
example : ∀ ops' tl, hist1 = ops' ++ .write :: tl → (run plainEnv ops').useXRefStream = false ∧
    (run plainEnv ops').useObjectStream = false := by
  intro ops' tl h
  have hmem : ∀ op ∈ ops', op ∈ hist1 := by intro op ho; rw [h]; simp [ho]
  have key : ∀ l : List Op, (∀ op ∈ l, ∀ on, op ≠ .useXRefStream on ∧ op ≠ .useObjectStream on) →
      (run plainEnv l).useXRefStream = false ∧ (run plainEnv l).useObjectStream = false := by
    intro l
    induction l using snoc_induction with
    | nil => intro _; decide
    | snoc l op ih =>
      intro hl
      have ih := ih (fun o ho => hl o (by simp [ho]))
      rw [run_append]
      cases op with
      | useXRefStream on => exact absurd rfl (hl (.useXRefStream on) (by simp) on).1
      | useObjectStream on => exact absurd rfl (hl (.useObjectStream on) (by simp) on).2
      | write =>
        have : (step plainEnv (run plainEnv l) .write).1 = _ :=
          congrArg Prod.snd (write_table plainEnv (run plainEnv l) ih.1 ih.2)
        rw [this]; exact ih
      | _ => exact ih
  apply key
  intro op ho on
  have := hmem op ho
  simp only [hist1, List.mem_cons, List.not_mem_nil, or_false] at this
  rcases this with rfl | rfl | rfl | rfl | rfl | rfl | rfl <;> simp

/-- C10 does not extend to object number 0: an object stored under 0 is written but its table entry is the
free-list head. -/
theorem C10_object_zero_violated :
    getObject (run plainEnv [.setObject 0 (some b!"(zero)")]) 0 = some b!"(zero)" ∧
    (write plainEnv (run plainEnv [.setObject 0 (some b!"(zero)")])).1 =
      b!"%PDF-1.7\n" ++ [0x25, 0xE2, 0xE3, 0xCF, 0xD3, 0x0A] ++
      b!"0 0 obj\n(zero)\nendobj\nxref\n0 1\n0000000000 65535 f \ntrailer\n<<\n/Size 1\n>>\nstartxref\n37\n%%EOF\n" := by
  decide +kernel

/-! ### C11 -/

/-- C11 (partial: dictionaries are map literals not shared between objects, have no "/Length" key of
their own, and object streams are off): in any history, the text of every stored stream object in the
written file is `n 0 obj`, a dictionary, `stream`, the data, `endstream`; and the only entry of that
dictionary printed under /Length is the exact number of data bytes. -/
theorem C11_stream_length_partial (env : Env) (henv : FairOrder env) (ops : List Op)
    (hops : ∀ op ∈ ops, FreshDict op) (hx : (run env ops).useXRefStream = false)
    (n : Int) (o : Obj) (s : Bytes) (hg : (run env ops).objects.get n = some o) (hs : o.stream = some s) :
    ∃ (p : Nat) (d : Dict) (data : Bytes),
      (itoa n ++ b!" 0 obj\n" ++ formatDictionary d ++ b!"\nstream\n" ++ data ++ b!"\nendstream" ++ b!"\nendobj\n")
        <+: (write env (run env ops)).1.drop p ∧
      data = (match env.crypt with | none => s | some enc => (enc n s).getD s) ∧
      (∃ k, (k, PVal.int data.length) ∈ d ∧ slashKey k = b!"/Length") ∧
      ∀ k v, (k, v) ∈ d → slashKey k = b!"/Length" → v = .int data.length := by
  have hh := heapOK_run env henv ops hops
  have ho : (run env ops).useObjectStream = false := noStm env ops (fun on hon => hops _ hon)
  generalize hw : run env ops = w at *
  have hi : Inv w := hw ▸ inv_run env ops
  have hp := tableBody_keys env henv w
  have hnd : (tableBody env w).2.1.keys.Nodup := hp.nodup_iff.2 hi.nodup
  have hk : n ∈ (tableBody env w).2.1.keys := hp.mem_iff.2 ((Map.get_isSome_iff _ _).1 (by rw [hg]; rfl))
  obtain ⟨p, hpg⟩ := Option.isSome_iff_exists.1 ((Map.get_isSome_iff _ _).2 hk)
  have hmem := (Map.get_eq_some_iff _ hnd n p).1 hpg
  obtain ⟨o', heap1, k, hmo, hheap, hpk, hpre, _⟩ := writeObjs_at env (fun _ => false) _ w.heap (sortedObjs env w)
    (HeapOK env w.objects) hh
    (fun m o'' heap hm hH => objText_heap env w.objects heap m o'' ((sortedObjs_mem env henv w m o'').1 hm) hH)
    n p hmem
  have ho' : o' = o := by
    have := (sortedObjs_mem env henv w n o').1 hmo
    rw [hg] at this; simpa using this.symm
  subst ho'
  obtain ⟨d, data, ht, hdata, hdn, hdl, hdg, _⟩ := objText_stream env w.objects heap1 n o' s hg hs hheap
  refine ⟨p, d, data, ?_, hdata, ?_, ?_⟩
  · rw [← ht, write_table env w hx ho, hpk]
    simp only [List.append_assoc]
    refine drop_append_prefix (?_ : _ <+: ((tableBody env w).1 ++ _).drop k)
    rw [List.drop_append]
    exact hpre.trans (List.prefix_append _ _)
  · exact ⟨b!"Length", (Map.get_eq_some_iff d hdn _ _).1 hdg, rfl⟩
  · intro k v hkv hsl
    unfold slashKey at hsl
    split at hsl
    · exact absurd (List.mem_map.2 ⟨(k, v), hkv, hsl⟩) hdl
    · simp only [List.cons.injEq, true_and] at hsl
      subst hsl
      have := (Map.get_eq_some_iff d hdn b!"Length" v).2 hkv
      rw [hdg] at this
      simpa using this.symm

example : ∀ op ∈ hist2, FreshDict op := by
  intro op h
  simp only [hist2, List.mem_cons, List.not_mem_nil, or_false] at h
  rcases h with rfl | rfl | rfl | rfl
  · trivial
  · trivial
  · exact ⟨_, rfl, by decide, by decide⟩
  · trivial

/-- C11 is violated when the caller passes the same Dictionary to two stream calls: the first object is
written with the length of the second one's data (5 bytes of data, /Length 1). -/
theorem C11_shared_dictionary_violated :
    ((write plainEnv (run plainEnv [.addStream (.fresh []) (some b!"AAAAA") false,
        .addStream (.shared 0) (some b!"B") false])).1.drop 15).take 57 =
      b!"1 0 obj\n<</Length 1 >>\nstream\nAAAAA\nendstream\nendobj\n2 0 " := by decide +kernel

/-- C11 is violated when the caller's dictionary has the key "/Length": both lengths are written, the
caller's first. -/
theorem C11_slash_length_violated :
    ((write plainEnv (run plainEnv [.addStream (.fresh [(b!"/Length", .int 99)]) (some b!"AAAAA") false])).1.drop 15).take
        45 = b!"1 0 obj\n<</Length 99 /Length 5 >>\nstream\nAAAA" := by decide +kernel

/-! ### C12 -/

open Pdfer.XRefTable in
/-- C12 (partial: the text from `xref` to the end of the file is at most 10000 bytes, the number of bytes
the readers look at): both table readers return, for every number, the offset at which the complete text
of the stored object stands in the file, and nothing for numbers without an object. -/
theorem C12_table_readback_partial (env : Env) (henv : FairOrder env) (ops : List Op)
    (hx : (run env ops).useXRefStream = false) (ho : (run env ops).useObjectStream = false)
    (hsize : (write env (run env ops)).1.length < 2 ^ 63 ∧ (run env ops).nextObjNum < 2 ^ 63) :
    ∃ (start : Nat) (pre tl : Bytes), (write env (run env ops)).1 = pre ++ tl ∧ pre.length = start ∧
      (b!"startxref\n" ++ natDec start ++ b!"\n%%EOF\n") <:+ tl ∧
      (tl.length ≤ 10000 →
        ∃ m, parseTable (write env (run env ops)).1 start = some m ∧
          (∀ n, m.get n = (parseSection (write env (run env ops)).1 start).get n) ∧
          (∀ n, (m.get n).isSome ↔ 1 ≤ n ∧ ((run env ops).objects.get n).isSome) ∧
          ∀ n o off, (run env ops).objects.get n = some o → m.get n = some off →
            0 ≤ off ∧ ObjectAt env (write env (run env ops)).1 n o off.toNat) := by
  have hC9 := C09_offsets_exact env henv ops hx ho
  have hrefs := refs_run env ops
  have hinv := inv_run env ops
  generalize hw : run env ops = w at *
  have hp := tableBody_keys env henv w
  have hnd : (tableBody env w).2.1.keys.Nodup := hp.nodup_iff.2 hinv.nodup
  have hat : ∀ n p o, (n, p) ∈ (tableBody env w).2.1 → w.objects.get n = some o →
      p < (header w.pdfVersion ++ (tableBody env w).1).length := by
    intro n p o he _
    obtain ⟨_, _, k, _, _, hk, _, hkl⟩ := writeObjs_at env (fun _ => false) _ w.heap (sortedObjs env w)
      (fun _ => True) trivial (fun _ _ _ _ _ => trivial) n p he
    simp only [List.length_append]
    unfold tableBody
    omega
  have hout : (write env w).1 = (header w.pdfVersion ++ (tableBody env w).1) ++
      tail w (tableBody env w).2.1 ((header w.pdfVersion).length + (tableBody env w).1.length) := by
    rw [write_table env w hx ho]
    simp [tail, List.append_assoc]
  have hmax : ∀ e ∈ (tableBody env w).2.1, e.2 ≤ 9223372036854775807 := by
    rintro ⟨n, p⟩ he
    have hk : n ∈ w.objects.keys := hp.mem_iff.1 (List.mem_map.2 ⟨_, he, rfl⟩)
    obtain ⟨o, hg⟩ := Option.isSome_iff_exists.1 ((Map.get_isSome_iff _ _).2 hk)
    have h1 := hat n p o he hg
    have h2 := hsize.1
    rw [hout, List.length_append] at h2
    simp only [] at h1 ⊢
    omega
  refine ⟨(header w.pdfVersion ++ (tableBody env w).1).length, _, _, hout, rfl, ?_, ?_⟩
  · refine ⟨xrefTable w.nextObjNum (tableBody env w).2.1 ++ trailer w, ?_⟩
    simp [tail, startxref, List.append_assoc]
  · intro hwin
    obtain ⟨m, hm1, hm2⟩ := parseTable_tail (header w.pdfVersion ++ (tableBody env w).1) w hrefs
      (tableBody env w).2.1 _ hinv.next_pos (by have := hsize.2; omega) hmax hwin
    have hs2 := parseSection_tail (header w.pdfVersion ++ (tableBody env w).1) w hrefs
      (tableBody env w).2.1 _ hinv.next_pos (by have := hsize.2; omega) hmax hwin
    rw [← hout] at hm1 hs2
    refine ⟨m, hm1, fun n => by rw [hm2, hs2], ?_, ?_⟩
    · intro n
      rw [hm2 n]
      by_cases hn : 1 ≤ n ∧ n < w.nextObjNum
      · rw [if_pos hn]
        simp only [Option.isSome_map, hn.1, true_and]
        rw [Map.get_isSome_iff, Map.get_isSome_iff, hp.mem_iff]
      · rw [if_neg hn]
        simp only [Option.isSome_none, Bool.false_eq_true, false_iff, not_and]
        intro h1 h2
        have := hinv.lt_next n ((Map.get_isSome_iff _ _).1 h2)
        exact hn ⟨h1, this⟩
    · intro n o off hg hoff
      rw [hm2 n] at hoff
      split at hoff
      · rename_i hn
        cases hpg : (tableBody env w).2.1.get n with
        | none => rw [hpg] at hoff; simp at hoff
        | some p =>
          rw [hpg] at hoff
          simp only [Option.map_some, Option.some.injEq] at hoff
          subst hoff
          refine ⟨Int.natCast_nonneg p, ?_⟩
          obtain ⟨o', heap1, k, hmo, _, hpk, hpre, _⟩ := writeObjs_at env (fun _ => false) _ w.heap
            (sortedObjs env w) (fun _ => True) trivial (fun _ _ _ _ _ => trivial) n p
            ((Map.get_eq_some_iff _ hnd n p).1 hpg)
          have ho' : o' = o := by
            have := (sortedObjs_mem env henv w n o').1 hmo
            rw [hg] at this; simpa using this.symm
          subst ho'
          have hat' : (objText env heap1 n o').1 <+: (write env w).1.drop (Int.ofNat p).toNat := by
            rw [hout, show (Int.ofNat p).toNat = p from rfl, hpk]
            rw [List.append_assoc]
            refine drop_append_prefix (?_ : _ <+: ((tableBody env w).1 ++ _).drop k)
            rw [List.drop_append]
            exact hpre.trans (List.prefix_append _ _)
          exact objectAt_of_objText hat'
      · simp at hoff

example : (write plainEnv (run plainEnv hist2)).1.length < 2 ^ 63 ∧ (run plainEnv hist2).nextObjNum < 2 ^ 63 := by
  decide +kernel
example : XRefTable.parseTable (write plainEnv (run plainEnv hist2)).1 132 =
    some [(4, 71), (3, 48), (1, 15)] := by decide +kernel

/-- C12 is violated for large documents: whatever the file, the table reader never returns more than
10000 objects, because it looks at no more than 10000 bytes. -/
theorem C12_window_violated (pdf : Bytes) (start : Nat) (m : Map Int Int)
    (h : XRefTable.parseTable pdf start = some m) : m.length ≤ 10000 :=
  XRefTable.parseTable_bounded pdf start m h

/-- C12 is violated: there is a history of 10001 Add calls whose file, read at any start offset, lacks the
offset of at least one stored object. -/
theorem C12_large_document_violated :
    ∃ ops : List Op, (∀ n : Int, 1 ≤ n → n ≤ 10001 → ((run plainEnv ops).objects.get n).isSome) ∧
      ∀ start m, XRefTable.parseTable (write plainEnv (run plainEnv ops)).1 start = some m →
        ∃ n : Int, 1 ≤ n ∧ n ≤ 10001 ∧ m.get n = none := by
  refine ⟨List.replicate 10001 (.addObject (some b!"null")), ?_, ?_⟩
  · have key : ∀ k : Nat, (run plainEnv (List.replicate k (.addObject (some b!"null")))).nextObjNum = k + 1 ∧
        ∀ n : Int, 1 ≤ n → n ≤ k →
          ((run plainEnv (List.replicate k (.addObject (some b!"null")))).objects.get n).isSome := by
      intro k
      induction k with
      | zero => exact ⟨rfl, fun n h1 h2 => by omega⟩
      | succ k ih =>
        rw [List.replicate_succ', run_append]
        refine ⟨?_, fun n h1 h2 => ?_⟩
        · simp only [step, addObject, ih.1]; omega
        · simp only [step, addObject]
          by_cases hn : n = (run plainEnv (List.replicate k (.addObject (some b!"null")))).nextObjNum
          · rw [hn, Map.get_set_eq]; rfl
          · rw [Map.get_set_ne _ _ hn]
            exact ih.2 n h1 (by rw [ih.1] at hn; omega)
    exact (key 10001).2
  · intro start m h
    by_contra hc
    have hall : ∀ n : Int, 1 ≤ n → n ≤ 10001 → n ∈ m.keys := by
      intro n h1 h2
      by_contra hk
      exact hc ⟨n, h1, h2, (Map.get_none_iff _ _).2 hk⟩
    have hsub : (List.range 10001).map (fun k : Nat => ((k : Int) + 1)) ⊆ m.keys := by
      intro n hn
      obtain ⟨k, hk, rfl⟩ := List.mem_map.1 hn
      have := List.mem_range.1 hk
      exact hall _ (by omega) (by omega)
    have hnd : ((List.range 10001).map (fun k : Nat => ((k : Int) + 1))).Nodup :=
      List.Nodup.map (fun a b (hab : (a : Int) + 1 = b + 1) => by omega) List.nodup_range
    have hle := (List.subperm_of_subset hnd hsub).length_le
    have : m.length ≤ 10000 := XRefTable.parseTable_bounded _ _ m h
    simp only [List.length_map, List.length_range, Map.keys] at hle
    omega

/-! ### C13 -/

/-- C13: the text of a dictionary does not depend on the iteration order of the maps involved, at any
nesting depth (`ord` may permute every dictionary differently). -/
theorem C13_dictionary_deterministic (ord : List (Bytes × Bytes) → List (Bytes × Bytes))
    (hord : ∀ l, (ord l).Perm l) (d : Dict) (hd : WFVal (.dict d)) :
    formatDictOrd ord d = formatDictionary d :=
  formatValue_ord ord hord _ hd

/-- C13: two association lists for the same map print the same. -/
theorem C13_dictionary_map_order (d₁ d₂ : Dict) (hp : d₁.Perm d₂) (hn : d₁.keys.Nodup) :
    formatDictionary d₁ = formatDictionary d₂ := by
  have key : ∀ {a b : List (Bytes × PVal)}, a.Perm b → (formatEntries id a).Perm (formatEntries id b) := by
    intro a b h
    induction h with
    | nil => exact List.Perm.refl _
    | cons x _ ih => exact List.Perm.cons _ ih
    | swap x y l => exact List.Perm.swap _ _ _
    | trans _ _ h1 h2 => exact h1.trans h2
  simp only [formatDictionary, formatDictOrd, formatValue, id]
  rw [renderEntries_perm _ _ (key hp)]
  rw [formatEntries_keys]; exact hn

/-- C13: without object streams, the bytes produced by Write do not depend on the iteration order of the
object map. -/
theorem C13_write_deterministic (env₁ env₂ : Env) (h₁ : FairOrder env₁) (h₂ : FairOrder env₂)
    (hz : env₁.z = env₂.z) (hc : env₁.crypt = env₂.crypt) (w : Writer)
    (ho : w.useObjectStream = false) : write env₁ w = write env₂ w := by
  have hs : sortedObjs env₁ w = sortedObjs env₂ w := by
    unfold sortedObjs
    rw [sortBy_eq_of_perm _ _ _ _ (env₂.order w.objects.keys) ((h₁ _).trans (h₂ _).symm)]
    · intro a _ b _ h1 h2
      simp only [decide_eq_true_eq] at h1 h2; omega
    · intro a b; simp only [decide_eq_true_eq]; omega
    · intro a b c; simp only [decide_eq_true_eq]; omega
  have ht : ∀ heap n o, objText env₁ heap n o = objText env₂ heap n o := by
    intro heap n o; unfold objText; rw [hc]
  have hwo : ∀ skip pos heap l, writeObjs env₁ skip pos heap l = writeObjs env₂ skip pos heap l := by
    intro skip pos heap l
    induction l generalizing pos heap with
    | nil => rfl
    | cons e rest ih => obtain ⟨n, o⟩ := e; simp only [writeObjs, ht, ih]
  have hx : ∀ a b c d, xrefStreamObj env₁ a b c d = xrefStreamObj env₂ a b c d := by
    intro a b c d; unfold xrefStreamObj; rw [hz]
  unfold write
  rw [create_off _ w ho, create_off _ w ho]
  simp only [hs, hwo, hx]

/-- Non-vacuity: two different orders of a two-object writer. -/
example : (∀ l : List Int, (l.reverse).Perm l) ∧ (run plainEnv hist2).objects.keys.Nodup :=
  ⟨fun l => List.reverse_perm l, by decide +kernel⟩

/-- C13 is violated with object streams: two iteration orders of the same two objects give different
files. -/
theorem C13_object_streams_violated :
    (write plainEnv (run plainEnv [.useObjectStream true, .addObject (some b!"A"), .addObject (some b!"B")])).1 ≠
    (write { plainEnv with order := List.reverse }
      (run plainEnv [.useObjectStream true, .addObject (some b!"A"), .addObject (some b!"B")])).1 := by
  decide +kernel

/-! ### C14 -/

/-- C14 (partial: table mode, no encryption): Write leaves the writer unchanged, so writing again gives the
same bytes. -/
theorem C14_write_twice_partial (env : Env) (w : Writer) (hx : w.useXRefStream = false)
    (ho : w.useObjectStream = false) (hc : env.crypt = none) :
    (write env w).2 = w ∧ (write env (write env w).2).1 = (write env w).1 := by
  have hheap : ∀ pos heap l, (writeObjs env (fun _ => false) pos heap l).2.2 = heap := by
    intro pos heap l
    induction l generalizing pos heap with
    | nil => rfl
    | cons e rest ih =>
      obtain ⟨n, o⟩ := e
      simp only [writeObjs, Bool.false_eq_true, if_false]
      rw [ih]
      unfold objText
      rw [hc]
      cases o.stream <;> rfl
  have h : (write env w).2 = w := by
    rw [write_table env w hx ho]
    simp only [tableBody, hheap]
  exact ⟨h, by rw [h]⟩

/-- C14 is violated in cross-reference-stream mode: a second Write of the same writer differs. -/
theorem C14_xref_stream_violated :
    (write plainEnv (run plainEnv [.useXRefStream true, .addObject (some b!"A"), .write])).1 ≠
    (write plainEnv (run plainEnv [.useXRefStream true, .addObject (some b!"A")])).1 := by
  decide +kernel

example : plainEnv.crypt = none ∧ (run plainEnv hist2).useXRefStream = false := by decide +kernel

end Pdfer.Props
