import Verif.Proofs.OutlineRead
import Verif.Proofs.OpenWritten

/-! Histories with outlines: invariants, the catalog, reading the file. -/

namespace Pdfer.Outline

open Pdfer.Go Pdfer.Writer Pdfer.Strings Pdfer.Manipulate Pdfer.Spec.Outline Pdfer.Crypto Pdfer.Incremental

theorem inv_put {w : Writer} (h : Inv w) (n : Int) (o o' : Obj) (hn : w.objects.get n = some o) (w' : Writer)
    (e1 : w'.objects = w.objects.set n o') (e2 : w'.nextObjNum = w.nextObjNum) : Inv w' := by
  have hlt := h.lt_next n ((Map.get_isSome_iff _ _).1 (by rw [hn]; rfl))
  exact inv_objects_set h n w.nextObjNum o' hlt (Int.le_refl _) w' e1 e2

theorem inv_setNext {w : Writer} (h : Inv w) (p n : Int) : Inv (setNext w p n) := by
  unfold setNext
  split
  · exact h
  · rename_i o ho
    exact inv_put h p o _ ho _ rfl rfl

theorem inv_addAction {w : Writer} (h : Inv w) (uri : Bytes) : Inv (addAction w uri).1 := by
  unfold addAction
  split
  · exact h
  · exact inv_objects_set h w.nextObjNum (w.nextObjNum + 1) _ (by omega) (by omega) _ rfl rfl

mutual
theorem inv_createItem (pages : Map Int Int) (parent : Int) (later : Bool) (st : St) (b : Bookmark) (h : Inv st.w) :
    Inv (createItem pages parent later st b).w := by
  match b with
  | .mk title page dest uri children =>
    rw [createItem]
    simp only
    have hA := inv_addAction h uri
    have hA1 : Inv { (addAction st.w uri).1 with nextObjNum := (addAction st.w uri).1.nextObjNum + 1 } := inv_same hA rfl (by simp)
    have hp := hA1.next_pos
    have ih := inv_createItems pages (addAction st.w uri).1.nextObjNum false
      ⟨{ (addAction st.w uri).1 with nextObjNum := (addAction st.w uri).1.nextObjNum + 1 }, 0, 0, 0⟩ children hA1
    have ok := createItems_ok pages (addAction st.w uri).1.nextObjNum false
      ⟨{ (addAction st.w uri).1 with nextObjNum := (addAction st.w uri).1.nextObjNum + 1 }, 0, 0, 0⟩ children
      (by simp only at hp ⊢; omega) (by simp)
    have hr := numberItems_range ((addAction st.w uri).1.nextObjNum + 1) children
    have hnx := ok.next
    simp only at hnx
    generalize createItems pages (addAction st.w uri).1.nextObjNum false
      ⟨{ (addAction st.w uri).1 with nextObjNum := (addAction st.w uri).1.nextObjNum + 1 }, 0, 0, 0⟩ children = K at *
    have hW : ∀ t, Inv { K.w with objects := K.w.objects.set (addAction st.w uri).1.nextObjNum t } := fun t =>
      inv_objects_set ih _ K.w.nextObjNum t (by rw [hnx]; omega) (Int.le_refl _) _ rfl rfl
    split
    · exact inv_setNext (hW _) _ _
    · exact hW _
theorem inv_createItems (pages : Map Int Int) (parent : Int) (later : Bool) (st : St) (bs : List Bookmark) (h : Inv st.w) :
    Inv (createItems pages parent later st bs).w := by
  match bs with
  | [] => rw [createItems]; exact h
  | b :: bs =>
    rw [createItems]
    exact inv_createItems pages parent true _ bs (inv_createItem pages parent later st b h)
end

/-- What holds of every writer with outlines. -/
structure OInv (o : OWriter) : Prop where
  inv : Inv o.w
  root : RefOrNil o.w.rootRef
  info : RefOrNil o.w.infoRef
  encrypt : RefOrNil o.w.encryptRef
  outlines : o.outlines = [] ∨ ∃ k, 0 < k ∧ o.outlines = ref k

theorem oinv_set {o : OWriter} (h : OInv o) (bs : List Bookmark) (pages : Map Int Int) : OInv (setBookmarks o bs pages).1 := by
  unfold setBookmarks
  split
  · exact h
  · have ok := createItems_ok pages 0 false ⟨o.w, 0, 0, 0⟩ bs (by have := h.inv.next_pos; simp only; omega) (by simp)
    have hi := inv_createItems pages 0 false ⟨o.w, 0, 0, 0⟩ bs h.inv
    simp only
    generalize createItems pages 0 false ⟨o.w, 0, 0, 0⟩ bs = st at *
    have hr : SameRest o.w st.w := ok.rest
    have hp := hi.next_pos
    constructor
    · exact inv_objects_set hi st.w.nextObjNum (st.w.nextObjNum + 1) _ (by omega) (by omega) _ rfl rfl
    · show RefOrNil st.w.rootRef
      rw [hr]; exact h.root
    · show RefOrNil st.w.infoRef
      rw [hr]; exact h.info
    · show RefOrNil st.w.encryptRef
      rw [hr]; exact h.encrypt
    · exact .inr ⟨st.w.nextObjNum, by omega, rfl⟩

theorem oinv_put {o : OWriter} (h : OInv o) (n : Int) (obj : Obj) (hn : o.w.objects.get n = some obj) (heap : List Dict) (a : Nat) :
    OInv (putOutlines o n obj heap a) := by
  constructor
  · exact inv_put h.inv n obj _ hn _ rfl rfl
  · exact h.root
  · exact h.info
  · exact h.encrypt
  · exact h.outlines

theorem oinv_update {o : OWriter} (h : OInv o) : OInv (updateCatalog o) := by
  unfold updateCatalog
  split
  · exact h
  simp only
  split
  · exact h
  split
  · exact h
  rename_i obj hobj
  split
  · exact oinv_put h _ _ hobj _ _
  split
  · exact oinv_put h _ _ hobj _ _
  split
  · exact h
  split
  · exact h
  split
  · exact ⟨inv_put h.inv _ _ _ hobj _ rfl rfl, h.root, h.info, h.encrypt, h.outlines⟩
  · exact h

theorem refs_step (env : Writer.Env) (w : Writer) (op : Op) (h : RefOrNil w.rootRef ∧ RefOrNil w.infoRef ∧ RefOrNil w.encryptRef) :
    RefOrNil (step env w op).1.rootRef ∧ RefOrNil (step env w op).1.infoRef ∧ RefOrNil (step env w op).1.encryptRef := by
  cases op with
  | setRoot n => exact ⟨.inr ⟨n, rfl⟩, h.2.1, h.2.2⟩
  | setInfo n => exact ⟨h.1, .inr ⟨n, rfl⟩, h.2.2⟩
  | setEncryptRef n => exact ⟨h.1, h.2.1, .inr ⟨n, rfl⟩⟩
  | write =>
    obtain ⟨h1, h2, h3⟩ := XRefTable.write_refs env w
    rw [show (step env w .write).1 = (write env w).2 from rfl, h1, h2, h3]
    exact h
  | _ => exact h

theorem oinv_write (env : Writer.Env) {o : OWriter} (h : OInv o) : OInv (owrite env o).2 := by
  unfold owrite
  simp only
  have h1 := oinv_update h
  apply oinv_update
  have hr := refs_step env (updateCatalog o).w .write ⟨h1.root, h1.info, h1.encrypt⟩
  exact ⟨inv_step env _ .write h1.inv, hr.1, hr.2.1, hr.2.2, h1.outlines⟩

theorem oinv_call (env : Writer.Env) {o : OWriter} (h : OInv o) (op : Op) : OInv { o with w := (step env o.w op).1 } := by
  have hr := refs_step env o.w op ⟨h.root, h.info, h.encrypt⟩
  exact ⟨inv_step env _ op h.inv, hr.1, hr.2.1, hr.2.2, h.outlines⟩

theorem oinv_step (env : Writer.Env) {o : OWriter} (h : OInv o) (op : OOp) : OInv (ostep env o op) := by
  cases op with
  | bookmarks bs pages => exact oinv_set h bs pages
  | call op =>
    by_cases hw : op = .write
    · subst hw; exact oinv_write env h
    · have : ostep env o (.call op) = { o with w := (step env o.w op).1 } := by
        cases op <;> first | rfl | exact absurd rfl hw
      rw [this]
      exact oinv_call env h op

theorem oinv_run (env : Writer.Env) (ops : List OOp) : OInv (orun env ops) := by
  unfold orun
  have : ∀ o, OInv o → OInv (ops.foldl (ostep env) o) := by
    induction ops with
    | nil => exact fun _ h => h
    | cons op ops ih => exact fun o h => ih _ (oinv_step env h op)
  exact this _ ⟨inv_new, .inl rfl, .inl rfl, .inl rfl, .inl rfl⟩

/-! ### The catalog -/

theorem refNum_ref {n : Int} (h : 0 < n) (h2 : n ≤ 9223372036854775807) : refNum (ref n) = n := by
  unfold refNum
  rw [ref_nat h]
  have : ∀ (d r : Bytes), (32 : UInt8) ∉ d → (d ++ 32 :: r).takeWhile (fun c => decide (c ≠ 32)) = d := by
    intro d r hd
    induction d with
    | nil => rfl
    | cons c d ih =>
      simp only [List.mem_cons, not_or] at hd
      rw [List.cons_append, List.takeWhile_cons, if_pos (by simp; exact fun e => hd.1 e.symm), ih hd.2]
  rw [this _ _ (not_mem_natDec (by decide) _), atoi_natDec _ (by omega)]
  simp; omega

theorem ref_ne_nil (n : Int) : ref n ≠ [] := by simp [ref]

/-- The text of a rewritten catalog. -/
def catalogText (k : Int) (v : Bytes) : Bytes := b!"<</Outlines " ++ ref k ++ b!" /Pages " ++ asValue v ++ b!" /Type /Catalog >>"

theorem catalog_text (k : Int) (v : Bytes) :
    formatDictionary (Map.set [(b!"/Type", PVal.str b!"/Catalog"), (b!"/Pages", .str v)] b!"/Outlines" (.str (ref k))) = catalogText k v := by
  have : Map.set [(b!"/Type", PVal.str b!"/Catalog"), (b!"/Pages", .str v)] b!"/Outlines" (.str (ref k)) =
      [(b!"/Outlines", .str (ref k)), (b!"/Type", PVal.str b!"/Catalog"), (b!"/Pages", .str v)] := by
    simp [Map.set]
  rw [this]
  unfold formatDictionary formatDictOrd
  rw [formatValue]
  simp only [formatEntries, formatPair, str_value, asValue_ref, asValue_name]
  unfold catalogText
  simp [renderEntries, sortBy, insertBy, bytesLe, slashKey]

theorem update_rewrite {o : OWriter} {k n : Int} {s : Bytes} {st : Option Bytes} (hk : o.outlines = ref k) (hr : o.w.rootRef = ref n)
    (hn : 0 < n) (hn2 : n ≤ 9223372036854775807) (hobj : o.w.objects.get n = some { content := some s, stream := st, dict := none })
    (h1 : contains s b!"/Type" = true) (h2 : contains s b!"/Pages" = true) :
    (updateCatalog o).w.objects = o.w.objects.set n
      { content := some (catalogText k (valueFromString s b!"/Pages")), stream := st, dict := some o.w.heap.length } ∧
    (updateCatalog o).w.nextObjNum = o.w.nextObjNum ∧ (updateCatalog o).w.rootRef = ref n := by
  unfold updateCatalog
  rw [hk, hr, if_neg (by simp [ref_ne_nil])]
  simp only
  rw [refNum_ref hn hn2, if_neg (by omega), hobj]
  simp only [Option.getD_some, h1, h2, Bool.and_self, if_true, putOutlines, hk]
  refine ⟨?_, trivial, hr⟩
  congr 2
  rw [← catalog_text]
  simp

theorem update_insert {o : OWriter} {k n : Int} {a b : Bytes} {st : Option Bytes} (hk : o.outlines = ref k) (hr : o.w.rootRef = ref n)
    (hn : 0 < n) (hn2 : n ≤ 9223372036854775807)
    (hobj : o.w.objects.get n = some { content := some (a ++ b!">>" ++ b), stream := st, dict := none })
    (h1 : ¬ (b!"/Type" <:+: a ++ b!">>" ++ b ∧ b!"/Pages" <:+: a ++ b!">>" ++ b)) (h2 : ¬ b!"/Outlines" <:+: a ++ b!">>" ++ b)
    (ha : a ≠ []) (hb : lastIndex b!">>" (a ++ b!">>" ++ b) = some a.length) :
    (updateCatalog o).w.objects = o.w.objects.set n
      { content := some (a ++ b!"/Outlines " ++ ref k ++ b!" >>" ++ b), stream := st, dict := none } ∧
    (updateCatalog o).w.nextObjNum = o.w.nextObjNum ∧ (updateCatalog o).w.rootRef = ref n := by
  unfold updateCatalog
  rw [hk, hr, if_neg (by simp [ref_ne_nil])]
  simp only
  rw [refNum_ref hn hn2, if_neg (by omega), hobj]
  simp only [Option.getD_some]
  rw [if_neg (by
    rw [Bool.and_eq_true, contains_iff, contains_iff]; exact h1)]
  rw [if_neg (by rw [contains_iff]; exact h2), hb]
  simp only
  rw [if_pos (List.length_pos_iff.2 ha)]
  refine ⟨?_, rfl, hr⟩
  simp only [putContent]
  congr 2
  simp

theorem set_set {κ ν : Type} [DecidableEq κ] (m : Map κ ν) (k : κ) (v v' : ν) : (m.set k v).set k v' = m.set k v' := by
  unfold Map.set
  rw [List.filter_cons_of_neg (by simp), List.filter_filter]
  simp

theorem map_set_get {κ ν : Type} [DecidableEq κ] (m : Map κ ν) (k : κ) (v : ν) : (m.set k v).get k = some v := by
  rw [Map.get_set, if_pos rfl]

theorem put_idem (o : OWriter) (n : Int) (obj : Obj) (heap : List Dict) (a : Nat) :
    putOutlines (putOutlines o n obj heap a) n
      { obj with content := some (formatDictionary ((heap.getD a []).set b!"/Outlines" (.str o.outlines))), dict := some a }
      (putOutlines o n obj heap a).w.heap a = putOutlines o n obj heap a := by
  have hd : ((heap.set a ((heap.getD a []).set b!"/Outlines" (.str o.outlines))).getD a []).set b!"/Outlines" (.str o.outlines) =
      (heap.getD a []).set b!"/Outlines" (.str o.outlines) := by
    by_cases ha : a < heap.length
    · have : (heap.set a ((heap.getD a []).set b!"/Outlines" (.str o.outlines))).getD a [] = (heap.getD a []).set b!"/Outlines" (.str o.outlines) := by
        simp [List.getD_eq_getElem?_getD, ha]
      rw [this, set_set]
    · rw [List.set_eq_of_length_le (by omega)]
  unfold putOutlines
  simp only [hd, set_set, List.set_set]

theorem occ_insert {p a m b : Bytes} {k : Bytes} (hp : p = 47 :: k) (hk : (47 : UInt8) ∉ k) (hm : ∃ t, m = 47 :: t) (hav : Avoid p m)
    (h : p <:+: a ++ m ++ b) : p <:+: a ++ b := by
  obtain ⟨s, t, hst⟩ := h
  obtain ⟨m', rfl⟩ := hm
  have hpre : p <+: (a ++ 47 :: m' ++ b).drop s.length := by
    rw [← hst]; simp
  by_cases h1 : s.length < a.length
  · have hle : p.length ≤ a.length - s.length := by
      apply Classical.byContradiction
      intro hgt
      rw [List.append_assoc, List.drop_append_of_le_length (by omega)] at hpre
      obtain ⟨r, hr⟩ := hpre
      have hlen : (a.drop s.length).length = a.length - s.length := by simp
      have h2 : p[a.length - s.length]? = some 47 := by
        have : (p ++ r)[a.length - s.length]? = some 47 := by
          rw [hr, List.getElem?_append_right (by rw [hlen]), hlen]
          simp
        rw [List.getElem?_append_left (by omega)] at this
        exact this
      rw [hp] at h2
      obtain ⟨j, hj⟩ : ∃ j, a.length - s.length = j + 1 := ⟨a.length - s.length - 1, by omega⟩
      rw [hj, List.getElem?_cons_succ] at h2
      exact hk (List.mem_of_getElem? h2)
    rw [List.append_assoc, List.drop_append_of_le_length (by omega)] at hpre
    have : p <+: a.drop s.length := by
      obtain ⟨r, hr⟩ := hpre
      rw [List.prefix_iff_eq_take]
      have := congrArg (List.take p.length) hr
      rw [List.take_left, List.take_append_of_le_length (by simp; omega)] at this
      exact this
    exact (this.isInfix.trans (List.drop_suffix _ _).isInfix).trans (List.prefix_append a b).isInfix
  · by_cases h2 : s.length < a.length + (47 :: m').length
    · exfalso
      have := hav (s.length - a.length) (by omega) b
      apply this
      rw [List.append_assoc, List.drop_append, List.drop_of_length_le (by omega), List.nil_append,
        List.drop_append_of_le_length (by omega)] at hpre
      exact hpre
    · have : p <+: b.drop (s.length - (a.length + (47 :: m').length)) := by
        rw [List.drop_append, List.drop_of_length_le (by simp at h2 ⊢; omega), List.nil_append] at hpre
        simpa using hpre
      exact (this.isInfix.trans (List.drop_suffix _ _).isInfix).trans (List.suffix_append a b).isInfix

theorem update_other {o : OWriter} {n : Int} (hr : o.w.rootRef = ref n) (hn : 0 < n) (hn2 : n ≤ 9223372036854775807) (m : Int) (hm : m ≠ n) :
    (updateCatalog o).w.objects.get m = o.w.objects.get m := by
  unfold updateCatalog
  split
  · rfl
  simp only
  rw [hr, refNum_ref hn hn2, if_neg (by omega)]
  have hset : ∀ x, (o.w.objects.set n x).get m = o.w.objects.get m := by
    intro x; rw [Map.get_set, if_neg hm]
  split
  · rfl
  split
  · exact hset _
  split
  · exact hset _
  split
  · rfl
  split
  · rfl
  split
  · exact hset _
  · rfl

theorem update_next (o : OWriter) : (updateCatalog o).w.nextObjNum = o.w.nextObjNum := by
  unfold updateCatalog
  split
  · rfl
  simp only
  split
  · rfl
  split
  · rfl
  split
  · rfl
  split
  · rfl
  split
  · rfl
  split
  · rfl
  split <;> rfl

theorem update_idem {o : OWriter} (h : OInv o) : updateCatalog (updateCatalog o) = updateCatalog o := by
  by_cases h0 : o.outlines = [] ∨ o.w.rootRef = []
  · have : updateCatalog o = o := by unfold updateCatalog; rw [if_pos h0]
    rw [this, this]
  by_cases h1 : refNum o.w.rootRef = 0
  · have : updateCatalog o = o := by unfold updateCatalog; rw [if_neg h0]; simp only; rw [if_pos h1]
    rw [this, this]
  cases h2 : o.w.objects.get (refNum o.w.rootRef) with
  | none =>
    have : updateCatalog o = o := by unfold updateCatalog; rw [if_neg h0]; simp only; rw [if_neg h1, h2]
    rw [this, this]
  | some obj =>
    have hput : ∀ heap a, updateCatalog (putOutlines o (refNum o.w.rootRef) obj heap a) = putOutlines o (refNum o.w.rootRef) obj heap a := by
      intro heap a
      conv => lhs; unfold updateCatalog
      rw [if_neg (show ¬ ((putOutlines o (refNum o.w.rootRef) obj heap a).outlines = [] ∨
        (putOutlines o (refNum o.w.rootRef) obj heap a).w.rootRef = []) from h0)]
      simp only
      have hr : (putOutlines o (refNum o.w.rootRef) obj heap a).w.rootRef = o.w.rootRef := rfl
      rw [hr, if_neg h1]
      have hg : (putOutlines o (refNum o.w.rootRef) obj heap a).w.objects.get (refNum o.w.rootRef) =
          some { obj with content := some (formatDictionary ((heap.getD a []).set b!"/Outlines" (.str o.outlines))), dict := some a } := by
        unfold putOutlines; simp only; rw [map_set_get]
      rw [hg]
      simp only
      exact put_idem o _ obj heap a
    have hu : updateCatalog o = updateCatalog o := rfl
    conv at hu => rhs; unfold updateCatalog
    rw [if_neg h0] at hu
    simp only at hu
    rw [if_neg h1, h2] at hu
    simp only at hu
    cases hd : obj.dict with
    | some a =>
      rw [hd] at hu
      simp only at hu
      rw [hu, hput]
    | none =>
      rw [hd] at hu
      simp only at hu
      split at hu
      · rw [hu, hput]
      rename_i htp
      split at hu
      · rw [hu, hu]
      split at hu
      · rw [hu, hu]
      rename_i i hi
      split at hu
      · rw [hu]
        conv => lhs; unfold updateCatalog
        rw [if_neg (by exact h0)]
        simp only
        rw [if_neg (show ¬ refNum (putContent o.w _ obj _).rootRef = 0 from h1)]
        have hg : ∀ c, (putContent o.w (refNum o.w.rootRef) obj c).objects.get (refNum o.w.rootRef) = some { obj with content := some c } := by
          intro c; unfold putContent; simp only; rw [map_set_get]
        have hrr : ∀ c, (putContent o.w (refNum o.w.rootRef) obj c).rootRef = o.w.rootRef := fun _ => rfl
        simp only [hrr, hg, hd, Option.getD_some]
        have hout : ∃ k, o.outlines = ref k := by
          rcases h.outlines with e | ⟨k, _, e⟩
          · exact absurd (.inl e) h0
          · exact ⟨k, e⟩
        obtain ⟨k, hk⟩ := hout
        have hmem : ∀ (P : Bytes) (kk : Bytes), P = 47 :: kk → (47 : UInt8) ∉ kk → clash P b!"/Outlines " = true →
            P <:+: (obj.content.getD []).take i ++ (b!"/Outlines " ++ o.outlines ++ b!" ") ++ (obj.content.getD []).drop i →
            P <:+: obj.content.getD [] := by
          intro P kk hP hkk hcl hin
          have := occ_insert hP hkk ⟨_, rfl⟩ (by
            subst hP
            rw [hk]
            exact avoid_append (avoid_append (avoid_clash hcl) (avoid_head (slash_ref k))) (avoid_head (by decide))) hin
          rwa [List.take_append_drop] at this
        rw [if_neg, if_pos]
        · rw [contains_iff]
          exact ⟨(obj.content.getD []).take i, b!" " ++ o.outlines ++ b!" " ++ (obj.content.getD []).drop i, by simp⟩
        · intro hc
          apply htp
          rw [Bool.and_eq_true, contains_iff, contains_iff] at hc ⊢
          exact ⟨hmem _ _ rfl (by decide) (by decide) hc.1, hmem _ _ rfl (by decide) (by decide) hc.2⟩
      · rw [hu, hu]

/-! ### Reading the file -/

theorem parse_ref {n : Int} (h : 0 < n) (h2 : n ≤ 9223372036854775807) : parseObjectRef (ref n) = some n := by
  have := parseObjectRef_refText n.toNat (by omega)
  rw [ref_nat h]
  have e : (n.toNat : Int) = n := by omega
  rw [e] at this
  exact this

theorem first_of_outlines (k f l : Int) (c : Nat) (hf : 0 < f) :
    xDictValue (Outline.objectText k (outlinesText f l c)) b!"/First" = natDec f.toNat := by
  have e : Outline.objectText k (outlinesText f l c) = (itoa k ++ b!" 0 obj\n<</Count " ++ natDec c ++ b!" ") ++
      (entry b!"/First" (some (ref f)) ++ (b!"/Last " ++ ref l ++ b!" /Type /Outlines >>" ++ b!"\nendobj")) := by
    simp [Outline.objectText, outlinesText, entry]
  rw [e, xDict_found]
  · exact firstWord_ref hf
  · exact avoid_append (avoid_append (avoid_append (avoid_head (slash_not_itoa _)) (avoid_clash (by decide))) (avoid_head (slash_not_natDec _)))
      (avoid_head (by decide))
  · exact ref_head hf

theorem outlines_of_catalog (n k : Int) (rest : Bytes) (hk : 0 < k) :
    xDictValue (Outline.objectText n (b!"<</Outlines " ++ ref k ++ b!" " ++ rest)) b!"/Outlines" = natDec k.toNat := by
  have e : Outline.objectText n (b!"<</Outlines " ++ ref k ++ b!" " ++ rest) = (itoa n ++ b!" 0 obj\n<<") ++
      (entry b!"/Outlines" (some (ref k)) ++ (rest ++ b!"\nendobj")) := by
    simp [Outline.objectText, entry]
  rw [e, xDict_found]
  · exact firstWord_ref hk
  · exact avoid_append (avoid_head (slash_not_itoa _)) (avoid_head (by decide))
  · exact ref_head hk

/-- The file of a writer whose outline objects and catalog are in place gives the bookmarks back (as `readBackAll`). -/
theorem extract_ok (wenv : Writer.Env) (o : OWriter) (hi : OInv o) (hfit : Spec.FileFits wenv (updateCatalog o).w)
    (env : Incremental.Env) (henc : env.handleEncryption (owrite wenv o).1 = some none)
    (hdel : ∀ n obj, (updateCatalog o).w.objects.get n = some obj → obj.stream = none → Spec.Delimitable (obj.content.getD []))
    (bs : List Bookmark) (xs : List Node) (pages : Map Int Int) (hitems : ItemsAt (textOf o.w) pages none none xs bs)
    (hpos : ∀ m ∈ numsOf xs, 0 < m ∧ m < o.w.nextObjNum) (f : Node) (hf : xs.head? = some f) (k l : Int) (hk : 0 < k) (c : Nat)
    (hout : textOf o.w k = some (outlinesText f.num l c)) (n : Int) (hn : 0 < n) (hr : o.w.rootRef = ref n) (hnn : n < o.w.nextObjNum)
    (hne : n ∉ numsOf xs) (hnk : n ≠ k) (obj : Obj) (hobj : (updateCatalog o).w.objects.get n = some obj) (hos : obj.stream = none)
    (hrest : xDictValue (Outline.objectText n (obj.content.getD [])) b!"/Outlines" = natDec k.toNat)
    (hplain : PlainAll bs) (hnext : (updateCatalog o).w.nextObjNum = o.w.nextObjNum) (hroot : (updateCatalog o).w.rootRef = ref n)
    (fuel : Nat) (hfuel : sizeAll bs ≤ fuel) :
    ∃ pdf, openPdf env (owrite wenv o).1 = .ok pdf ∧ extractBookmarks (pdfGet env pdf) pdf.root fuel = some (readBackAll pages bs) := by
  have hu := oinv_update hi
  obtain ⟨pdf, h1, h2, h3, h4, h5⟩ := open_writer wenv (updateCatalog o).w hu.inv ⟨hu.root, hu.info, hu.encrypt⟩ hfit env henc
  have hmax := hfit.next
  rw [hnext] at hmax
  have hget : ∀ m ob, 1 ≤ m → (updateCatalog o).w.objects.get m = some ob → ob.stream = none →
      pdfGet env pdf m = some (Outline.objectText m (ob.content.getD [])) := by
    intro m ob hm hg hs
    obtain ⟨c, hc, hgo⟩ := h5 m ob hm hg
    unfold Spec.BodyOf at hc
    rw [hs] at hc
    simp only at hc
    subst hc
    unfold pdfGet
    rw [hgo (hdel m ob hg hs)]
    rfl
  have hholds : ∀ m t, 0 < m → m ≠ n → textOf o.w m = some t → pdfGet env pdf m = some (Outline.objectText m t) := by
    intro m t hm hmn ht
    unfold textOf at ht
    cases hg : o.w.objects.get m with
    | none => rw [hg] at ht; simp at ht
    | some ob =>
      rw [hg] at ht
      simp only [Option.bind_some] at ht
      split at ht
      · rename_i hc
        simp only [Bool.and_eq_true, Option.isNone_iff_eq_none] at hc
        have := hget m ob (by omega) (by rw [update_other hr hn (by omega) m hmn]; exact hg) hc.1
        rw [this, ht]; rfl
      · simp at ht
  refine ⟨pdf, h1, ?_⟩
  have hroot' : pdf.root = ref n := by
    have := h3 n.toNat (by rw [hroot]; congr 1; omega)
    rw [this]; congr 1; omega
  unfold extractBookmarks
  rw [hroot', if_neg (ref_ne_nil n), parse_ref hn (by omega), Option.bind_some, hget n obj (by omega) hobj hos]
  simp only
  have hkn : k < o.w.nextObjNum := by
    have : (o.w.objects.get k).isSome := by
      unfold textOf at hout
      cases hg : o.w.objects.get k with
      | none => rw [hg] at hout; simp at hout
      | some _ => rfl
    exact hi.inv.lt_next k ((Map.get_isSome_iff _ _).1 this)
  rw [hrest, parse_word hk (by omega), Option.bind_some, hholds k _ hk (fun e => hnk e.symm) hout]
  simp only
  have hfn := hpos f.num (head_num_mem hf)
  rw [first_of_outlines k f.num l c hfn.1]
  unfold follow
  rw [if_neg (natDec_ne_nil _)]
  have hri := readItems_ok (get := pdfGet env pdf) (obj := fun m => if m ∈ numsOf xs then textOf o.w m else none) (by
    intro m t hm
    simp only at hm
    split at hm
    · rename_i hmem
      exact hholds m t (hpos m hmem).1 (fun e => hne (e ▸ hmem)) hm
    · simp at hm) pages none none fuel xs bs hfuel (fun m hm => ⟨(hpos m hm).1, by have := hpos m hm; omega⟩) hplain
    (itemsAt_congr xs bs (fun m hm => by simp only [hm, if_true]) hitems) f hf
  rw [hri]
  rfl

end Pdfer.Outline
