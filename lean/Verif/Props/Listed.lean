import Verif.Props.Extract

/-! C95: the images that are listed in the resources of a page. -/

namespace Pdfer.Props

open Pdfer.Go Pdfer.Builder Pdfer.Manipulate
open Pdfer.Extract (XFloats XObj Image)
open Pdfer.Spec.PageDict (NameIs IntIs)
open Pdfer.Spec.Manipulate (FirstKey decimal White)
open Pdfer.Spec.Extract (FreeName)

variable {F V : Type}

theorem fillMap_get (f : Bytes × Int → Option V) (es : List (Bytes × Int)) (hn : (es.map (·.1)).Nodup) (m : Map Bytes V)
    (hm : ∀ e ∈ es, Map.get m e.1 = none) (k : Bytes) :
    Map.get (es.foldl (fun m e => match f e with | none => m | some v => m.set e.1 v) m) k =
      ((Map.get es k).bind fun n => f (k, n)).or (Map.get m k) := by
  induction es generalizing m with
  | nil => simp [Map.get]
  | cons e es ih =>
    obtain ⟨k', n⟩ := e
    obtain ⟨hn1, hn2⟩ := List.nodup_cons.1 hn
    have hm' : ∀ e ∈ es, Map.get (match f (k', n) with | none => m | some v => Map.set m k' v) e.1 = none := by
      intro e he
      have hne : e.1 ≠ k' := fun h => hn1 (List.mem_map.2 ⟨e, he, h⟩)
      have := hm e (by simp [he])
      cases f (k', n) with
      | none => exact this
      | some w => simp only [Map.get_set, hne, if_false]; exact this
    rw [List.foldl_cons, ih hn2 _ hm']
    by_cases e : k = k'
    · subst e
      have h0 : Map.get es k = none := (Map.get_none_iff es k).2 hn1
      have h1 : Map.get ((k, n) :: es) k = some n := by simp [Map.get]
      have h2 : Map.get m k = none := hm (k, n) (by simp)
      rw [h0, h1, h2]
      cases hv : f (k, n) with
      | none => simp [h2, hv]
      | some w => simp [Map.get_set, hv]
    · have e' : ¬ k' = k := fun h => e h.symm
      have : Map.get ((k', n) :: es) k = Map.get es k := by simp [Map.get, e']
      rw [this]
      congr 1
      cases f (k', n) with
      | none => rfl
      | some w => simp [Map.get_set, e]

theorem fillMap_nodup (f : Bytes × Int → Option V) (es : List (Bytes × Int)) (m : Map Bytes V) (h : m.keys.Nodup) :
    (es.foldl (fun m e => match f e with | none => m | some v => m.set e.1 v) m).keys.Nodup := by
  induction es generalizing m with
  | nil => exact h
  | cons e es ih =>
    rw [List.foldl_cons]
    refine ih _ ?_
    cases f e with
    | none => exact h
    | some v => exact Map.nodup_set m _ _ h

theorem filterMap_get {W : Type} (g : Bytes → V → Option W) (m : Map Bytes V) (h : m.keys.Nodup) (k : Bytes) :
    Map.get (m.filterMap fun e => (g e.1 e.2).map fun w => (e.1, w)) k = (Map.get m k).bind (g k) := by
  induction m with
  | nil => rfl
  | cons e m ih =>
    obtain ⟨k', v⟩ := e
    obtain ⟨h1, h2⟩ := List.nodup_cons.1 h
    have ih := ih h2
    by_cases e : k' = k
    · subst e
      have h0 : Map.get m k' = none := (Map.get_none_iff m k').2 h1
      have h3 : Map.get ((k', v) :: m) k' = some v := by simp [Map.get]
      rw [h3]
      cases hg : g k' v with
      | none =>
        rw [List.filterMap_cons]
        simp only [hg, Option.map_none]
        rw [ih, h0]
        simp [hg]
      | some w =>
        rw [List.filterMap_cons]
        simp only [hg, Option.map_some]
        simp [Map.get, hg]
    · have h3 : Map.get ((k', v) :: m) k = Map.get m k := by simp [Map.get, e]
      rw [h3, ← ih, List.filterMap_cons]
      cases hg : g k' v with
      | none => simp only [Option.map_none]
      | some w => simp only [Option.map_some]; simp [Map.get, e]

/-- The names and numbers of an XObject dictionary as text. -/
def xobjectText (l : List (Bytes × Int)) : Bytes := (l.map fun e => b!"/" ++ e.1 ++ b!" " ++ decimal e.2 ++ b!" 0 R").flatten

theorem xobjects_get (fl : XFloats F) (get : Int → Option Bytes) (res post : Bytes) (l : List (Bytes × Int))
    (hl : ∀ e ∈ l, FreeName e.1 ∧ 0 < e.2 ∧ e.2 ≤ 9223372036854775807) (hn : (l.map (·.1)).Nodup)
    (hk : FirstKey res b!"/XObject" (b!"<<" ++ xobjectText l ++ b!">>" ++ post)) (k : Bytes) :
    Map.get (Extract.xobjectsOf fl get res) k = (Map.get l k).bind fun n => Extract.xobjInfo fl get k n := by
  have he : xobjectText l = entries l := by
    unfold xobjectText entries
    congr 1
    refine List.map_congr_left fun e he => ?_
    have : Writer.ref e.2 = decimal e.2 ++ b!" 0 R" := by simp [Writer.ref, itoa_decimal]
    rw [this]; simp
  obtain ⟨pre, hpre, hres⟩ := hk
  have hflat : ∀ c ∈ entries l, c ≠ 60 ∧ c ≠ 62 := Extract.entries_flat fun e hm => (hl e hm).1
  have hd : Extract.xobjDict res = some (entries l) := by
    unfold Extract.xobjDict
    have : searchWith (Extract.reDictGroup b!"/XObject") res = some (entries l) := by
      rw [hres, he]
      have e2 : pre ++ b!"/XObject" ++ (b!"<<" ++ entries l ++ b!">>" ++ post) =
        pre ++ (b!"/XObject" ++ (b!"<<" ++ (entries l ++ (b!">>" ++ post)))) := by simp
      rw [e2, searchWith_first (c := 47) (k := b!"XObject") (fun s hs => Extract.reDictGroup_prefix hs) (by intro d hd; simp at hd; subst hd; decide)
        (noOcc_iff_infix.2 hpre)]
      exact searchWith_here (Extract.reDictGroup_here hflat post)
    rw [this]
  unfold Extract.xobjectsOf
  rw [hd]
  simp only
  rw [Extract.entriesOf_entries hl]
  unfold Extract.fillMap
  refine Eq.trans (fillMap_get (fun e => Extract.xobjInfo fl get e.1 e.2) l hn [] (fun e _ => rfl) k) ?_
  simp [Map.get]

/-- C95 (partial: names that cannot be taken for keys, an XObject dictionary directly behind its key, sizes that are integers which the
floating point numbers represent): the resources of a page list under every name of the XObject dictionary whose object is an image that image,
with its width and height. -/
theorem C95_listed_partial (fl : XFloats F) (get : Int → Option Bytes) (res post : Bytes) (l : List (Bytes × Int))
    (hl : ∀ e ∈ l, FreeName e.1 ∧ 0 < e.2 ∧ e.2 ≤ 9223372036854775807) (hn : (l.map (·.1)).Nodup)
    (hk : FirstKey res b!"/XObject" (b!"<<" ++ xobjectText l ++ b!">>" ++ post)) (name : Bytes) (num : Int) (s : Bytes) (w h : Int) (x y : F)
    (hm : Map.get l name = some num) (hg : get num = some s) (hi : NameIs s b!"/Subtype" b!"/Image") (hw : IntIs s b!"/Width" w) (hh : IntIs s b!"/Height" h)
    (hx : fl.parse (decimal w) = some x ∧ fl.toInt x = w) (hy : fl.parse (decimal h) = some y ∧ fl.toInt y = h) :
    ∃ i, Map.get (Extract.resourcesOf fl get res).images name = some i ∧ i.id = b!"/" ++ name ∧ i.width = w ∧ i.height = h := by
  have hsub : xDictValue s b!"/Subtype" = b!"/Image" := Extract.xDict_name (k := b!"Subtype") (by decide) (by decide) (by decide) hi
  have num' : ∀ (k : Bytes) (r : Int) (z : F), (47 : UInt8) ∉ k → IntIs s (47 :: k) r → fl.parse (decimal r) = some z → Extract.numValue fl s (47 :: k) = z := by
    intro k r z hk hI hz
    obtain ⟨w', rest, hw0, hw', hr, pre, hpre, rfl⟩ := hI
    have e : pre ++ (47 :: k) ++ (w' ++ decimal r ++ rest) = pre ++ ((47 :: k) ++ (w' ++ (itoa r ++ rest))) := by rw [itoa_decimal]; simp
    have hv : xDictValue (pre ++ (47 :: k) ++ (w' ++ decimal r ++ rest)) (47 :: k) = decimal r := by
      rw [e, xDict_value hk (noOcc_iff_infix.2 hpre) hw0 hw' (itoa_token r) hr, itoa_decimal]
    unfold Extract.numValue
    rw [hv, hz]
    have : decimal r ≠ [] := by rw [← itoa_decimal]; exact (itoa_token r).1
    rw [if_neg this]
    rfl
  have hxo : Extract.xobjInfo fl get name num = some ⟨b!"/" ++ name, b!"/Image", x, y⟩ := by
    unfold Extract.xobjInfo
    rw [hg]
    simp only [Option.bind_some, hsub]
    rw [num' b!"Width" w x (by decide) hw hx.1, num' b!"Height" h y (by decide) hh hy.1]
    simp
  have hx0 := xobjects_get fl get res post l hl hn hk name
  rw [hm] at hx0
  simp only [Option.bind_some, hxo] at hx0
  have hnd : (Extract.xobjectsOf fl get res).keys.Nodup := by
    unfold Extract.xobjectsOf
    split
    · exact List.nodup_nil
    · exact fillMap_nodup _ _ [] List.nodup_nil
  have key := filterMap_get (fun (k : Bytes) (o : XObj F) => if o.subtype = b!"/Image" then
    some (⟨b!"/" ++ k, fl.toInt o.width, fl.toInt o.height, b!"unknown", [], 0, [], []⟩ : Image) else none) (Extract.xobjectsOf fl get res) hnd name
  rw [hx0] at key
  refine ⟨⟨b!"/" ++ name, w, h, b!"unknown", [], 0, [], []⟩, ?_, rfl, rfl, rfl⟩
  rw [← hx.2, ← hy.2]
  refine Eq.trans ?_ (Eq.trans key (by rfl))
  show Map.get (List.filterMap _ _) name = _
  congr 1
  apply List.filterMap_congr
  intro e _
  split <;> rfl

/-- C95: and nothing else is listed: an image that is listed under a name is that of an object of the dictionary whose type is /Image. -/
theorem C95_only_images_partial (fl : XFloats F) (get : Int → Option Bytes) (res post : Bytes) (l : List (Bytes × Int))
    (hl : ∀ e ∈ l, FreeName e.1 ∧ 0 < e.2 ∧ e.2 ≤ 9223372036854775807) (hn : (l.map (·.1)).Nodup)
    (hk : FirstKey res b!"/XObject" (b!"<<" ++ xobjectText l ++ b!">>" ++ post)) (name : Bytes) (i : Image)
    (hi : Map.get (Extract.resourcesOf fl get res).images name = some i) :
    ∃ num s, Map.get l name = some num ∧ get num = some s ∧ ∀ t : Bytes, t ≠ [] → (∀ c ∈ t, nameByte c = true) → NameIs s b!"/Subtype" (47 :: t) → t = b!"Image" := by
  have hnd : (Extract.xobjectsOf fl get res).keys.Nodup := by
    unfold Extract.xobjectsOf
    split
    · exact List.nodup_nil
    · exact fillMap_nodup _ _ [] List.nodup_nil
  have key := filterMap_get (fun (k : Bytes) (o : XObj F) => if o.subtype = b!"/Image" then
    some (⟨b!"/" ++ k, fl.toInt o.width, fl.toInt o.height, b!"unknown", [], 0, [], []⟩ : Image) else none) (Extract.xobjectsOf fl get res) hnd name
  have hi' : Map.get (List.filterMap (fun e : Bytes × XObj F => ((fun (k : Bytes) (o : XObj F) => if o.subtype = b!"/Image" then
    some (⟨b!"/" ++ k, fl.toInt o.width, fl.toInt o.height, b!"unknown", [], 0, [], []⟩ : Image) else none) e.1 e.2).map fun w => (e.1, w)) (Extract.xobjectsOf fl get res)) name = some i := by
    rw [← hi]
    show _ = Map.get (List.filterMap _ _) name
    congr 1
    apply List.filterMap_congr
    intro e _
    simp only
    split <;> rfl
  rw [hi', xobjects_get fl get res post l hl hn hk name] at key
  cases hm : Map.get l name with
  | none => rw [hm] at key; exact nomatch key
  | some num =>
    rw [hm] at key
    cases hg : get num with
    | none => simp [Extract.xobjInfo, hg] at key
    | some s =>
      refine ⟨num, s, rfl, hg, ?_⟩
      intro t h0 ht hN
      have hsub := Extract.xDict_name (k := b!"Subtype") (by decide) h0 ht hN
      simp only [Extract.xobjInfo, hg, Option.bind_some, hsub] at key
      rw [if_neg (by simp)] at key
      split at key
      · rename_i e; exact (List.cons.inj e).2
      · rename_i e
        simp only [Option.bind_some] at key
        rw [if_neg e] at key
        exact nomatch key

/-- An image, a form and a missing object in the resources of a page. -/
def exListed : Extract.Resources Int :=
  Extract.resourcesOf xFix (docGet [plainObj 6 b!"<</Subtype /Image /Width 30 /Height 20 >>", plainObj 7 b!"<</Subtype /Form >>"])
    b!"<</XObject<</Im1 6 0 R/Fm1 7 0 R/Im2 9 0 R>>>>"

example : exListed.images.map (fun e => (e.1, [e.2.width, e.2.height])) = [(b!"Im1", [30, 20])] := by decide +kernel

end Pdfer.Props
