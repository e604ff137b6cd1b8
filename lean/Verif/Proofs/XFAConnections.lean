import Verif.Proofs.XFALocale
import Verif.Spec.Builder

namespace Pdfer.XFASets

open Pdfer.Go Pdfer.XFA
open Pdfer.Spec.Xml Pdfer.Spec.XFASets Pdfer.Spec.Builder

/-- All properties are set, one after the other. -/
def putAll {V : Type} (ps m : List (Bytes × V)) : List (Bytes × V) := ps.foldl (fun m p => Map.set m p.1 p.2) m

theorem putAll_get {V : Type} (ps m : List (Bytes × V)) (hn : (ps.map (·.1)).Nodup) (k : Bytes) :
    Map.get (putAll ps m) k = (Map.get ps k).or (Map.get m k) := by
  induction ps generalizing m with
  | nil => simp [putAll, Map.get]
  | cons p ps ih =>
    obtain ⟨k', v⟩ := p
    have hk : k' ∉ ps.map (·.1) := (List.nodup_cons.1 hn).1
    have hs : putAll ((k', v) :: ps) m = putAll ps (Map.set m k' v) := rfl
    rw [hs, ih _ (List.nodup_cons.1 hn).2, Map.get_set]
    by_cases e : k = k'
    · subst e
      have : Map.get ps k = none := (Map.get_none_iff ps k).2 hk
      have h1 : Map.get ((k, v) :: ps) k = some v := by simp [Map.get]
      simp [this, h1]
    · have e' : ¬ k' = k := fun h => e h.symm
      have : Map.get ((k', v) :: ps) k = Map.get ps k := by simp [Map.get, e']
      simp [this, e]

theorem putAll_same {V : Type} (ps : List (Bytes × V)) (hn : (ps.map (·.1)).Nodup) : SameProps (putAll ps []) ps := by
  intro k
  rw [putAll_get ps [] hn]
  simp [Map.get]

/-- Between the elements of the connection set. -/
def CAt (set : List Connection) (cur : Option Connection) (inDesc : Bool) (st : CSt) : Prop := st.set = set ∧ st.cur = cur ∧ st.inDesc = inDesc

theorem cAt_blank {set : List Connection} {cur : Option Connection} {d : Bool} (st : CSt) (w : Bytes) (_ : Blank w) (h : CAt set cur d st) :
    CAt set cur d (cStep st (.chars w)) := h

/-- A step from a state given by its parts. -/
theorem cAt_step {set : List Connection} {cur : Option Connection} {d : Bool} {Q : CSt → Prop} {k : CSt → CSt}
    (h : ∀ v, Q (k ⟨set, cur, v, d⟩)) : ∀ st, CAt set cur d st → Q (k st) := by
  rintro ⟨set', cur', value', d'⟩ ⟨h1, h2, h3⟩
  simp only at h1 h2 h3
  subst h1 h2 h3
  exact h _

/-- A property element. -/
theorem read_prop (set : List Connection) (c : Connection) (d : Bool) (p : Bytes × Bytes) (hp : p.1 ∉ structural) {cur : Option Connection}
    (h : cEnd ⟨set, some c, p.2, d⟩ p.1 = ⟨set, cur, p.2, d⟩ ∨ cEnd ⟨set, some c, p.2, d⟩ p.1 = ⟨set, cur, [], d⟩) :
    Reads cStep (CAt set (some c) d) [.start p.1 [], .chars p.2, .close p.1] (CAt set cur d) := by
  simp only [structural, List.mem_cons, List.not_mem_nil, or_false, not_or] at hp
  have hs : ∀ v, cStep ⟨set, some c, v, d⟩ (.start p.1 []) = ⟨set, some c, [], d⟩ := by
    intro v
    simp [cStep, cStart, hp]
  refine Reads.text cAt_blank (fun _ => cAt_step (Q := fun st => cStep (cStep st _) _ = cStep st _) (k := id) fun v => ?_) (cAt_step fun v => ?_)
  · simp only [id, hs]; rfl
  · rw [hs]
    show CAt _ _ _ (cEnd ⟨set, some c, [] ++ p.2, d⟩ p.1)
    rw [List.nil_append]
    rcases h with h | h <;> (rw [h]; exact ⟨rfl, rfl, rfl⟩)

theorem cKnown_none {n : Bytes} (h : n ∉ knownNames) : cKnown n = none := by
  simp only [knownNames, List.mem_cons, List.not_mem_nil, or_false, not_or] at h
  simp [cKnown, h]

theorem cKnown_some {n : Bytes} (h : n ∈ knownNames) (hu : n ≠ b!"url") : cKnown n = some n := by
  by_cases h0 : n = b!"uri"
  · subst h0; rfl
  · simp only [knownNames, List.mem_cons, List.not_mem_nil, or_false] at h
    have : n ∈ [b!"wsdl", b!"operation", b!"soapAction", b!"user", b!"password", b!"dsn", b!"query"] := by
      simp only [List.mem_cons, List.not_mem_nil, or_false]
      rcases h with h | h | h
      · exact absurd h h0
      · exact absurd h hu
      · exact h
    simp only [cKnown]
    rw [if_neg (by simp [h0, hu]), if_pos this]

theorem end_desc (set : List Connection) (c : Connection) (d : DataDescription) (p : Bytes × Bytes) (hp : PropPlain p) (hk : p.1 ∉ knownNames) :
    cEnd ⟨set, some { c with description := some d }, p.2, true⟩ p.1 =
      ⟨set, some { c with description := some { d with properties := Map.set d.properties p.1 p.2 } }, [], true⟩ := by
  obtain ⟨h1, h2, h3⟩ := hp
  simp only [structural, List.mem_cons, List.not_mem_nil, or_false, not_or] at h1
  rw [NoEnds] at h3
  simp [cEnd, h1, cKnown_none hk, h2, h3]

theorem end_conn (set : List Connection) (c : Connection) (p : Bytes × Bytes) (hp : PropPlain p) (hu : p.1 ≠ b!"url") :
    cEnd ⟨set, some c, p.2, false⟩ p.1 = ⟨set, some { c with properties := Map.set c.properties p.1 p.2 }, p.2, false⟩ ∨
    cEnd ⟨set, some c, p.2, false⟩ p.1 = ⟨set, some { c with properties := Map.set c.properties p.1 p.2 }, [], false⟩ := by
  obtain ⟨h1, h2, h3⟩ := hp
  simp only [structural, List.mem_cons, List.not_mem_nil, or_false, not_or] at h1
  rw [NoEnds] at h3
  by_cases hk : p.1 ∈ knownNames
  · left
    simp [cEnd, h1, cKnown_some hk hu, h2, h3]
  · right
    simp [cEnd, h1, cKnown_none hk, h2, h3]

theorem read_descProps (set : List Connection) (c : Connection) (d : DataDescription) (ps : List (Bytes × Bytes))
    (hp : ∀ p ∈ ps, PropPlain p ∧ p.1 ∉ knownNames) :
    Reads cStep (CAt set (some { c with description := some d }) true) (encProps ps)
      (CAt set (some { c with description := some { d with properties := putAll ps d.properties } }) true) := by
  induction ps generalizing d with
  | nil => exact Reads.nil
  | cons p ps ih =>
    have h1 := hp p (by simp)
    exact Reads.append (read_prop set _ true p h1.1.1 (.inr (end_desc set c d p h1.1 h1.2)))
      (ih { d with properties := Map.set d.properties p.1 p.2 } fun q hq => hp q (by simp [hq]))

theorem read_connProps (set : List Connection) (c : Connection) (ps : List (Bytes × Bytes)) (hp : ∀ p ∈ ps, PropPlain p ∧ p.1 ≠ b!"url") :
    Reads cStep (CAt set (some c) false) (encProps ps) (CAt set (some { c with properties := putAll ps c.properties }) false) := by
  induction ps generalizing c with
  | nil => exact Reads.nil
  | cons p ps ih =>
    have h1 := hp p (by simp)
    exact Reads.append (read_prop set _ false p h1.1.1 (end_conn set c p h1.1 h1.2))
      (ih { c with properties := Map.set c.properties p.1 p.2 } fun q hq => hp q (by simp [hq]))

theorem description_attrs (d : DataDescription) :
    (strAttr b!"ref" d.ref ++ strAttr b!"schema" d.schema ++ strAttr b!"namespace" d.nspace).foldl descriptionAttr {} = { d with properties := [] } := by
  simp only [List.foldl_append]
  rw [fold_str (v := d.ref) (r' := { ref := d.ref }) rfl (by intro h; rw [h]),
    fold_str (v := d.schema) (r' := { ref := d.ref, schema := d.schema }) rfl (by intro h; rw [h]),
    fold_str (v := d.nspace) (r' := { ref := d.ref, schema := d.schema, nspace := d.nspace }) rfl (by intro h; rw [h])]

theorem connection_attrs (c : Connection) :
    (strAttr b!"name" c.name ++ strAttr b!"type" c.type).foldl connectionAttr {} = { name := c.name, type := c.type } := by
  simp only [List.foldl_append]
  rw [fold_str (v := c.name) (r' := { name := c.name }) rfl (by intro h; rw [h]),
    fold_str (v := c.type) (r' := { name := c.name, type := c.type }) rfl (by intro h; rw [h])]

theorem read_description (set : List Connection) (c : Connection) (hc : c.description = none) (d : DataDescription)
    (hp : ∀ p ∈ d.properties, PropPlain p ∧ p.1 ∉ knownNames) :
    Reads cStep (CAt set (some c) false) (encDescription d)
      (CAt set (some { c with description := some { d with properties := putAll d.properties [] } }) false) := by
  unfold encDescription
  refine Reads.append (Reads.append (Q := CAt set (some { c with description := some { d with properties := [] } }) true) ?_
    (read_descProps set c { d with properties := [] } d.properties hp)) (Reads.close cAt_blank (cAt_step fun v => ⟨rfl, rfl, rfl⟩))
  refine Reads.start cAt_blank (cAt_step fun v => ⟨rfl, ?_, rfl⟩)
  show some { c with description := some (List.foldl descriptionAttr (c.description.getD {}) _) } = _
  rw [hc]
  show some { c with description := some (List.foldl descriptionAttr {} _) } = _
  rw [description_attrs]

/-- The connection that is read. -/
def connBack (c : Connection) : Connection :=
  { c with properties := putAll c.properties [], description := c.description.map fun d => { d with properties := putAll d.properties [] } }

theorem read_connection (set : List Connection) (c : Connection) (hc : ConnectionPlain c) :
    Reads cStep (CAt set none false) (encConnection c) (CAt (set ++ [connBack c]) none false) := by
  unfold encConnection
  refine Reads.append (Q := CAt set (some (connBack c)) false) ?_ (Reads.close cAt_blank (cAt_step fun v => ⟨rfl, rfl, rfl⟩))
  refine Reads.append (Q := CAt set (some { name := c.name, type := c.type, description := (connBack c).description }) false) ?_ ?_
  · refine Reads.append (Q := CAt set (some { name := c.name, type := c.type }) false) ?_ (Reads.opt _ (fun h st => ?_) fun d hd => ?_)
    · refine Reads.start cAt_blank (cAt_step fun v => ⟨rfl, ?_, rfl⟩)
      show some (List.foldl connectionAttr {} _) = _
      rw [connection_attrs]
    · simp only [connBack, h, Option.map_none]; exact id
    · have := read_description set { name := c.name, type := c.type } rfl d (hc.2.2 d hd).1
      simpa only [connBack, hd, Option.map_some] using this
  · exact read_connProps set { name := c.name, type := c.type, description := (connBack c).description } c.properties hc.1

theorem read_connections (cs : List Connection) (h : ∀ c ∈ cs, ConnectionPlain c) (set : List Connection) :
    Reads cStep (CAt set none false) (cs.flatMap encConnection) (CAt (set ++ cs.map connBack) none false) := by
  induction cs generalizing set with
  | nil => simpa using Reads.nil
  | cons c cs ih =>
    rw [List.flatMap_cons]
    have := (read_connection set c (h c (by simp))).append (ih (fun x hx => h x (by simp [hx])) (set ++ [connBack c]))
    simpa using this

theorem read_connectionSet (cs : List Connection) (h : ∀ c ∈ cs, ConnectionPlain c) {enc dec : List Tok} (he : connectionSetToXFA cs = some enc)
    (hd : Decoded enc dec) : parseConnectionSet dec = cs.map connBack := by
  unfold connectionSetToXFA at he
  split at he
  · exact nomatch he
  · obtain rfl := Option.some.inj he
    have hr : Reads cStep (CAt [] none false) ([.start b!"connectionSet" []] ++ cs.flatMap encConnection ++ [.close b!"connectionSet"])
        (CAt ([] ++ cs.map connBack) none false) := by
      refine Reads.append (Reads.append ?_ (read_connections cs h [])) (Reads.close cAt_blank (cAt_step fun v => ⟨rfl, rfl, rfl⟩))
      exact Reads.start cAt_blank (cAt_step fun v => ⟨rfl, rfl, rfl⟩)
    have := (hr false dec {} hd ⟨rfl, rfl, rfl⟩).1
    rw [parseConnectionSet, this, List.nil_append]

theorem connBack_same {c : Connection} (h : ConnectionPlain c) : SameConnection (connBack c) c := by
  refine ⟨rfl, rfl, putAll_same _ h.2.1, ?_⟩
  cases hd : c.description with
  | none => simp [connBack, hd]
  | some d => simpa [connBack, hd] using putAll_same _ (h.2.2 d hd).2

end Pdfer.XFASets
