import Verif.Props.ManipAll

/-! C166: a sequence of page operations on one manipulator. -/

namespace Pdfer.Props

open Pdfer.Go Pdfer.Manipulate Pdfer.Spec.Manipulate

/-- One call on the manipulator. -/
inductive Edit where
  | rotate (page angle : Int)
  | delete (page : Int)
  | insert (page num : Int) (content : Bytes)

/-- The call (outer `none`: the enumeration of the pages did not finish, inner `none`: it returned an error). -/
def Edit.call (m : Manip) (fuel : Nat) : Edit → Option (Option Manip)
  | .rotate p a => rotatePage m fuel p a
  | .delete p => deletePage m fuel p
  | .insert p n c => insertPage m fuel p n c

/-- The calls one after the other; a call that fails leaves the manipulator as it is, and the next one follows. -/
def edits (m : Manip) (fuel : Nat) : List Edit → Option Manip
  | [] => some m
  | e :: es => match e.call m fuel with
    | none => none
    | some none => edits m fuel es
    | some (some m') => edits m' fuel es

theorem call_source {m m' : Manip} {fuel : Nat} {e : Edit} (h : e.call m fuel = some (some m')) : m'.get = m.get ∧ m'.root = m.root := by
  cases e with
  | rotate p a =>
    simp only [Edit.call] at h
    unfold rotatePage at h
    split at h
    · simp at h
    · cases hp : pageObject m fuel p with
      | none => rw [hp] at h; simp at h
      | some r =>
        rw [hp] at h
        cases r with
        | none => simp at h
        | some n =>
          cases hs : m.objects.get n with
          | none => simp [hs] at h
          | some s => simp [hs] at h; subst h; exact ⟨rfl, rfl⟩
  | delete p =>
    simp only [Edit.call] at h
    unfold deletePage at h
    rw [Option.bind_eq_some_iff] at h
    obtain ⟨r, -, h⟩ := h
    cases r with
    | none => simp at h
    | some n =>
      simp only at h
      split at h
      · simp at h
      · simp at h
      · rename_i parent _
        rw [Option.some.injEq, Option.bind_eq_some_iff] at h
        obtain ⟨s, -, h⟩ := h
        rw [Option.map_eq_some_iff] at h
        obtain ⟨t, -, rfl⟩ := h
        exact ⟨rfl, rfl⟩
  | insert p n c =>
    simp only [Edit.call] at h
    unfold insertPage at h
    rw [Option.map_eq_some_iff] at h
    obtain ⟨r, -, h⟩ := h
    rw [Option.bind_eq_some_iff] at h
    obtain ⟨l, -, h⟩ := h
    split at h
    · simp at h
    · rw [Option.bind_eq_some_iff] at h
      obtain ⟨q, -, h⟩ := h
      rw [Option.bind_eq_some_iff] at h
      obtain ⟨s, -, h⟩ := h
      rw [Option.map_eq_some_iff] at h
      obtain ⟨t, -, rfl⟩ := h
      exact ⟨rfl, rfl⟩

/-- C166: whatever calls came before, a page number means the page it meant when the file was opened. -/
theorem C166_numbers_partial (m m' : Manip) (fuel : Nat) (es : List Edit) (h : edits m fuel es = some m') (page : Int) :
    pageObject m' fuel page = pageObject m fuel page := by
  have : m'.get = m.get ∧ m'.root = m.root := by
    induction es generalizing m with
    | nil => simp only [edits, Option.some.injEq] at h; subst h; exact ⟨rfl, rfl⟩
    | cons e es ih =>
      rw [edits] at h
      cases hc : e.call m fuel with
      | none => rw [hc] at h; simp at h
      | some r =>
        rw [hc] at h
        cases r with
        | none => exact ih m h
        | some m1 =>
          obtain ⟨a, b⟩ := ih m1 h
          obtain ⟨c, d⟩ := call_source hc
          exact ⟨a.trans c, b.trans d⟩
  unfold pageObject
  rw [this.1, this.2]

/-- C166 is violated: so the numbers do not follow the pages.  Of four pages the first is deleted; turning "page 1" then turns the page that
is gone, deleting "page 1" again is an error, and the fourth of the three pages left can be turned. -/
theorem C166_follow_violated :
    ((deletePage manip4 9 1).bind fun r => r.bind fun m => (rotatePage m 9 1 90).map fun q => q.map fun m' =>
      (m'.objects.get 2, m'.objects.get 3, m'.objects.get 4)) =
      some (some (some b!"2 0 obj\n<</Type/Pages/Kids[4 0 R 5 0 R 6 0 R ] /Count 2>>\nendobj",
        some b!"3 0 obj\n<</Type/Page/Parent 2 0 R/Rotate 90 >>\nendobj", some b!"4 0 obj\n<</Type/Page/Parent 2 0 R>>\nendobj")) ∧
    ((deletePage manip4 9 1).bind fun r => r.bind fun m => (deletePage m 9 1).map fun q => q.isSome) = some false ∧
    ((deletePage manip4 9 1).bind fun r => r.bind fun m => (rotatePage m 9 4 90).map fun q => q.isSome) = some true := by decide +kernel

/-- The turns asked of one page in a list of calls (page, angle). -/
def turnsOf (page : Int) (calls : List (Int × Int)) : List Int := (calls.filter fun c => c.1 == page).map (·.2)

/-- C166: any sequence of turns of any pages turns each page by the sum of the turns asked of it, wherever the calls for other pages stand, and
changes no other object.  Partial: the conditions of C36 on the texts of the pages. -/
theorem C166_rotations_partial (m : Manip) (fuel : Nat) (nums : List Nat) (hall : allPages m.get m.root fuel = some (some (nums.map Int.ofNat)))
    (hnd : nums.Nodup) (text : Nat → Bytes) (rot : Nat → Int) (hp : ∀ n ∈ nums, m.objects.get n = some (text n) ∧ RotationIs (text n) (rot n) ∧
      (¬ b!"/Rotate" <:+: text n → b!">>" <:+: text n) ∧ -9223372036854775808 ≤ rot n ∧ rot n + 270 ≤ 9223372036854775807)
    (calls : List (Int × Int)) (hc : ∀ c ∈ calls, 1 ≤ c.1 ∧ c.1 ≤ nums.length ∧ (c.2 = 90 ∨ c.2 = 180 ∨ c.2 = 270)) :
    ∃ m', edits m fuel (calls.map fun c => .rotate c.1 c.2) = some m' ∧
      (∀ (i n : Nat), nums[i]? = some n → ∃ s, m'.objects.get n = some s ∧ RotationIs s
        (if turnsOf (i + 1) calls = [] then rot n else (rot n + (turnsOf (i + 1) calls).sum) % 360)) ∧
      ∀ k : Int, (∀ n ∈ nums, k ≠ n) → m'.objects.get k = m.objects.get k := by
  induction calls generalizing m text rot with
  | nil =>
    refine ⟨m, rfl, ?_, fun _ _ => rfl⟩
    intro i n hi
    obtain ⟨q1, q2, -⟩ := hp n (List.mem_of_getElem? hi)
    exact ⟨text n, q1, by simpa [turnsOf] using q2⟩
  | cons c cs ih =>
    obtain ⟨page, a⟩ := c
    obtain ⟨c1, c2, c3⟩ := hc (page, a) (by simp)
    simp only at c1 c2 c3
    obtain ⟨j, rfl⟩ : ∃ j : Nat, page = (j : Int) + 1 := ⟨(page - 1).toNat, by omega⟩
    have hj : j < nums.length := by omega
    have hjn : nums[j]? = some nums[j] := List.getElem?_eq_getElem hj
    obtain ⟨q1, q2, q3, q4, q5⟩ := hp nums[j] (List.getElem_mem hj)
    obtain ⟨h1, h2⟩ := rotateText_spec (angle := a) q2 q3 q4 (by omega)
    have hpage : pageObject m fuel ((j : Int) + 1) = some (some ((nums[j] : Nat) : Int)) := by
      unfold pageObject
      rw [hall]
      simp only [Option.map_some, Option.bind_some]
      rw [if_neg (by simp; omega)]
      have : ((j : Int) + 1).toNat - 1 = j := by omega
      rw [this, List.getElem?_map, hjn]
      rfl
    have hstep : rotatePage m fuel ((j : Int) + 1) a =
        some (some { m with objects := m.objects.set (nums[j] : Nat) (rotateText (text nums[j]) a) }) := by
      unfold rotatePage
      rw [if_neg (by omega), hpage]
      simp [q1]
    have hlt := Int.emod_lt_of_pos (rot nums[j] + a) (show (0 : Int) < 360 by omega)
    have hge := Int.emod_nonneg (rot nums[j] + a) (show (360 : Int) ≠ 0 by omega)
    obtain ⟨m', e1, e2, e3⟩ := ih { m with objects := m.objects.set (nums[j] : Nat) (rotateText (text nums[j]) a) } hall
      (fun n => if n = nums[j] then rotateText (text nums[j]) a else text n)
      (fun n => if n = nums[j] then (rot nums[j] + a) % 360 else rot n) (by
        intro n hn
        by_cases e : n = nums[j]
        · subst e
          simp only [if_true]
          exact ⟨Map.get_set_eq _ _ _, h1, fun h => absurd h2 h, by omega, by omega⟩
        · simp only [if_neg e]
          obtain ⟨w1, w2, w3, w4, w5⟩ := hp n hn
          exact ⟨(Map.get_set_ne _ _ (by omega)).trans w1, w2, w3, w4, w5⟩) (fun x hx => hc x (by simp [hx]))
    refine ⟨m', ?_, ?_, ?_⟩
    · rw [List.map_cons, edits]
      simp only [Edit.call, hstep]
      exact e1
    · intro i n hi
      obtain ⟨s, s1, s2⟩ := e2 i n hi
      refine ⟨s, s1, ?_⟩
      by_cases e : i = j
      · subst e
        have hn : n = nums[i] := by rw [hjn] at hi; simpa using hi.symm
        subst hn
        have ht : turnsOf ((i : Int) + 1) (((i : Int) + 1, a) :: cs) = a :: turnsOf ((i : Int) + 1) cs := by simp [turnsOf]
        rw [ht, if_neg (by simp), List.sum_cons]
        simp only [if_true] at s2
        by_cases h0 : turnsOf ((i : Int) + 1) cs = []
        · rw [if_pos h0] at s2; rw [h0]; simpa using s2
        · rw [if_neg h0, Int.emod_add_emod, Int.add_assoc] at s2
          exact s2
      · have hn : n ≠ nums[j] := by
          intro hn
          obtain ⟨hil, hie⟩ := List.getElem?_eq_some_iff.1 hi
          exact e ((List.nodup_iff_injective_getElem.1 hnd (a₁ := ⟨i, hil⟩) (a₂ := ⟨j, hj⟩) (by simpa using hie.trans hn)) |> congrArg Fin.val)
        have ht : turnsOf ((i : Int) + 1) (((j : Int) + 1, a) :: cs) = turnsOf ((i : Int) + 1) cs := by
          simp [turnsOf, Ne.symm e]
        rw [ht]
        simpa only [if_neg hn] using s2
    · intro k hk
      rw [e3 k hk]
      exact Map.get_set_ne _ _ (hk _ (List.getElem_mem hj))

theorem pageNums_page {get : Int → Option Bytes} : ∀ (fuel : Nat) (n : Int) (l : List Int), pageNums get fuel n = some (some l) →
    ∀ x ∈ l, ∃ s, get x = some s ∧ extractDictValue s b!"/Type" = b!"/Page" := by
  intro fuel
  induction fuel with
  | zero => intro n l h; simp [pageNums] at h
  | succ fuel ih =>
    intro n l h x hx
    rw [pageNums] at h
    cases hg : get n with
    | none => rw [hg] at h; simp at h
    | some s =>
      rw [hg] at h
      simp only at h
      split at h
      · rename_i ht
        simp at h; subst h
        rw [List.mem_singleton] at hx
        subst hx
        exact ⟨s, hg, ht⟩
      · split at h
        · simp at h; subst h; simp at hx
        · rw [Option.map_eq_some_iff] at h
          obtain ⟨l', h, e⟩ := h
          simp at e; subst e
          revert h
          generalize parseObjectRefArray (extractDictValue s b!"/Kids") = rs
          intro h
          induction rs generalizing l' with
          | nil => simp [kidsLoop] at h; subst h; simp at hx
          | cons r rs ihr =>
            rw [kidsLoop] at h
            cases hr : parseObjectRef r with
            | none => rw [hr] at h; exact ihr l' hx h
            | some k =>
              rw [hr] at h
              simp only [Option.bind_eq_some_iff, Option.map_eq_some_iff] at h
              obtain ⟨q, hq, ls, hls, rfl⟩ := h
              rw [List.mem_append] at hx
              rcases hx with hx | hx
              · cases q with
                | none => simp at hx
                | some q => exact ih k q hq x hx
              · exact ihr ls hx hls

theorem findParent_node {get : Int → Option Bytes} : ∀ (fuel : Nat) (n target p : Int), findParent get fuel n target = some (some p) →
    ∃ s, get p = some s ∧ extractDictValue s b!"/Type" ≠ b!"/Page" := by
  intro fuel
  induction fuel with
  | zero => intro n t p h; simp [findParent] at h
  | succ fuel ih =>
    intro n t p h
    rw [findParent] at h
    cases hg : get n with
    | none => rw [hg] at h; simp at h
    | some s =>
      rw [hg] at h
      simp only at h
      split at h
      · simp at h
      · rename_i ht
        split at h
        · simp at h
        · revert h
          generalize parseObjectRefArray (extractDictValue s b!"/Kids") = rs
          induction rs with
          | nil => intro h; simp at h
          | cons r rs ihr =>
            intro h
            rw [List.foldr_cons] at h
            cases hr : parseObjectRef r with
            | none => rw [hr] at h; exact ihr h
            | some k =>
              rw [hr] at h
              simp only at h
              split at h
              · simp at h; subst h; exact ⟨s, hg, ht⟩
              · cases hk : get k with
                | none => rw [hk] at h; exact ihr h
                | some ks =>
                  rw [hk] at h
                  simp only at h
                  split at h
                  · cases hf : findParent get fuel k t with
                    | none => rw [hf] at h; simp at h
                    | some q =>
                      rw [hf] at h
                      cases q with
                      | none => exact ihr h
                      | some q => simp at h; subst h; exact ih k t q hf
                  · exact ihr h

theorem pageObject_page {m : Manip} {fuel : Nat} {page n : Int} (h : pageObject m fuel page = some (some n)) :
    ∃ s, m.get n = some s ∧ extractDictValue s b!"/Type" = b!"/Page" := by
  unfold pageObject at h
  rw [Option.map_eq_some_iff] at h
  obtain ⟨r, hr, h⟩ := h
  rw [Option.bind_eq_some_iff] at h
  obtain ⟨l, rfl, h⟩ := h
  split at h
  · simp at h
  · have hx := List.mem_of_getElem? h
    unfold allPages at hr
    split at hr
    · simp at hr
    · split at hr
      · simp at hr
      · split at hr
        · simp at hr
        · exact pageNums_page _ _ _ hr n hx

/-- A call that looks for the object `x` in the opened file and rewrites it by `f`. -/
def Rewrites (fuel : Nat) (m : Manip) (e : Edit) (x : Int) (f : Bytes → Option Bytes) : Prop :=
  ∀ m' : Manip, m'.get = m.get → m'.root = m.root →
    e.call m' fuel = some ((m'.objects.get x).bind fun s => (f s).map fun t => { m' with objects := m'.objects.set x t })

/-- What the two runs have in common. -/
def SameObjects (a b : Option Manip) : Prop :=
  (a = none ∧ b = none) ∨ ∃ m1 m2, a = some m1 ∧ b = some m2 ∧ m1.get = m2.get ∧ m1.root = m2.root ∧ ∀ k, m1.objects.get k = m2.objects.get k

theorem rewrites_commute {m : Manip} {fuel : Nat} {e1 e2 : Edit} {x y : Int} {f g : Bytes → Option Bytes} (h1 : Rewrites fuel m e1 x f)
    (h2 : Rewrites fuel m e2 y g) (hxy : x ≠ y) : SameObjects (edits m fuel [e1, e2]) (edits m fuel [e2, e1]) := by
  right
  simp only [edits, h1 m rfl rfl, h2 m rfl rfl]
  have other : ∀ t : Bytes, e2.call { m with objects := m.objects.set x t } fuel = some ((m.objects.get y).bind fun s =>
      (g s).map fun t' => { m with objects := (m.objects.set x t).set y t' }) := by
    intro t
    rw [h2 { m with objects := m.objects.set x t } rfl rfl]
    simp only [Map.get_set_ne m.objects t (Ne.symm hxy)]
  have other' : ∀ t : Bytes, e1.call { m with objects := m.objects.set y t } fuel = some ((m.objects.get x).bind fun s =>
      (f s).map fun t' => { m with objects := (m.objects.set y t).set x t' }) := by
    intro t
    rw [h1 { m with objects := m.objects.set y t } rfl rfl]
    simp only [Map.get_set_ne m.objects t hxy]
  cases hx : (m.objects.get x).bind f with
  | none =>
    have a : ∀ M : Bytes → Manip, ((m.objects.get x).bind fun s => (f s).map M) = none := by
      intro M
      rw [Option.bind_eq_none_iff] at hx ⊢
      intro s hs; rw [hx s hs]; rfl
    cases hy : (m.objects.get y).bind g with
    | none =>
      have b : ∀ M : Bytes → Manip, ((m.objects.get y).bind fun s => (g s).map M) = none := by
        intro M
        rw [Option.bind_eq_none_iff] at hy ⊢
        intro s hs; rw [hy s hs]; rfl
      simp only [a, b, h1 m rfl rfl, h2 m rfl rfl]
      exact ⟨m, m, rfl, rfl, rfl, rfl, fun _ => rfl⟩
    | some t =>
      have b : ∀ M : Bytes → Manip, ((m.objects.get y).bind fun s => (g s).map M) = some (M t) := by
        intro M
        rw [Option.bind_eq_some_iff] at hy ⊢
        obtain ⟨s, hs, e⟩ := hy
        exact ⟨s, hs, by rw [e]; rfl⟩
      simp only [a, b, h2 m rfl rfl, other']
      exact ⟨_, _, rfl, rfl, rfl, rfl, fun _ => rfl⟩
  | some t =>
    have a : ∀ M : Bytes → Manip, ((m.objects.get x).bind fun s => (f s).map M) = some (M t) := by
      intro M
      rw [Option.bind_eq_some_iff] at hx ⊢
      obtain ⟨s, hs, e⟩ := hx
      exact ⟨s, hs, by rw [e]; rfl⟩
    cases hy : (m.objects.get y).bind g with
    | none =>
      have b : ∀ M : Bytes → Manip, ((m.objects.get y).bind fun s => (g s).map M) = none := by
        intro M
        rw [Option.bind_eq_none_iff] at hy ⊢
        intro s hs; rw [hy s hs]; rfl
      simp only [a, b, h1 m rfl rfl, other]
      exact ⟨_, _, rfl, rfl, rfl, rfl, fun _ => rfl⟩
    | some t' =>
      have b : ∀ M : Bytes → Manip, ((m.objects.get y).bind fun s => (g s).map M) = some (M t') := by
        intro M
        rw [Option.bind_eq_some_iff] at hy ⊢
        obtain ⟨s, hs, e⟩ := hy
        exact ⟨s, hs, by rw [e]; rfl⟩
      simp only [a, b, other, other']
      refine ⟨_, _, rfl, rfl, rfl, rfl, fun k => ?_⟩
      by_cases hk : k = x
      · subst hk
        show ((m.objects.set k t).set y t').get k = ((m.objects.set y t').set k t).get k
        rw [Map.get_set_ne _ _ hxy, Map.get_set_eq, Map.get_set_eq]
      · show ((m.objects.set x t).set y t').get k = ((m.objects.set y t').set x t).get k
        rw [Map.get_set_ne _ (k := x) t hk]
        by_cases hk' : k = y
        · subst hk'; rw [Map.get_set_eq, Map.get_set_eq]
        · rw [Map.get_set_ne _ _ hk', Map.get_set_ne _ _ hk', Map.get_set_ne _ _ hk]

theorem pageObject_source {m m' : Manip} (hg : m'.get = m.get) (hr : m'.root = m.root) (fuel : Nat) (page : Int) :
    pageObject m' fuel page = pageObject m fuel page := by
  unfold pageObject
  rw [hg, hr]

theorem rotate_rewrites {m : Manip} {fuel : Nat} {page n a : Int} (ha : a = 90 ∨ a = 180 ∨ a = 270) (h : pageObject m fuel page = some (some n)) :
    Rewrites fuel m (.rotate page a) n fun s => some (rotateText s a) := by
  intro m' hg hr
  simp only [Edit.call]
  unfold rotatePage
  rw [if_neg (by omega), pageObject_source hg hr, h]
  simp only [Option.map_some, Option.bind_some]
  cases m'.objects.get n <;> rfl

/-- C166: turns of two different pages may be made in either order: the same calls succeed, and the objects are the same. -/
theorem C166_turns_commute (m : Manip) (fuel : Nat) (p q n k a b : Int) (hp : pageObject m fuel p = some (some n))
    (hq : pageObject m fuel q = some (some k)) (hnk : n ≠ k) (ha : a = 90 ∨ a = 180 ∨ a = 270) (hb : b = 90 ∨ b = 180 ∨ b = 270) :
    SameObjects (edits m fuel [.rotate p a, .rotate q b]) (edits m fuel [.rotate q b, .rotate p a]) :=
  rewrites_commute (rotate_rewrites ha hp) (rotate_rewrites hb hq) hnk

/-- C166: a turn and a deletion, of any pages, may be made in either order, whatever the file and the texts of its pages. -/
theorem C166_turn_delete_commute (m : Manip) (fuel : Nat) (p q a : Int) :
    SameObjects (edits m fuel [.rotate p a, .delete q]) (edits m fuel [.delete q, .rotate p a]) := by
  have same : ∀ r : Option Manip, SameObjects r r := by
    intro r
    cases r with
    | none => exact .inl ⟨rfl, rfl⟩
    | some r => exact .inr ⟨r, r, rfl, rfl, rfl, rfl, fun _ => rfl⟩
  by_cases ha : a = 90 ∨ a = 180 ∨ a = 270
  case neg =>
    have hr : ∀ m' : Manip, (Edit.rotate p a).call m' fuel = some none := by
      intro m'
      simp only [Edit.call]
      unfold rotatePage
      rw [if_pos (by omega)]
    have : edits m fuel [.rotate p a, .delete q] = edits m fuel [.delete q, .rotate p a] := by
      simp only [edits, hr]
    rw [this]
    exact same _
  cases hall : allPages m.get m.root fuel with
  | none =>
    have h1 : (Edit.rotate p a).call m fuel = none := by
      simp only [Edit.call]
      unfold rotatePage pageObject
      rw [if_neg (by omega), hall]
      rfl
    have h2 : (Edit.delete q).call m fuel = none := by
      simp only [Edit.call]
      unfold deletePage pageObject
      rw [hall]
      rfl
    exact .inl ⟨by simp only [edits, h1], by simp only [edits, h2]⟩
  | some r =>
    have hpo : ∀ page, ∃ o, pageObject m fuel page = some o := by
      intro page; unfold pageObject; rw [hall]; exact ⟨_, rfl⟩
    obtain ⟨op, hop⟩ := hpo p
    cases op with
    | none =>
      have hr : ∀ m' : Manip, m'.get = m.get → m'.root = m.root → (Edit.rotate p a).call m' fuel = some none := by
        intro m' hg hrt
        simp only [Edit.call]
        unfold rotatePage
        rw [if_neg (by omega), pageObject_source hg hrt, hop]
        rfl
      have : edits m fuel [.rotate p a, .delete q] = edits m fuel [.delete q, .rotate p a] := by
        simp only [edits, hr m rfl rfl]
        cases hd : Edit.call m fuel (.delete q) with
        | none => rfl
        | some d =>
          cases d with
          | none => rfl
          | some m1 => simp only [hr m1 (call_source hd).1 (call_source hd).2]
      rw [this]
      exact same _
    | some n =>
      have hrw := rotate_rewrites ha hop
      -- the deletion: it does not finish, is refused whatever was turned, or rewrites a node
      have hdel : (∀ m' : Manip, m'.get = m.get → m'.root = m.root → (Edit.delete q).call m' fuel = none) ∨
          (∀ m' : Manip, m'.get = m.get → m'.root = m.root → (Edit.delete q).call m' fuel = some none) ∨
          ∃ y f, y ≠ n ∧ Rewrites fuel m (.delete q) y f := by
        obtain ⟨oq, hoq⟩ := hpo q
        cases oq with
        | none =>
          right; left
          intro m' hg hrt
          simp only [Edit.call]
          unfold deletePage
          rw [pageObject_source hg hrt, hoq]
          rfl
        | some k =>
          have red : ∀ (o : Option (Option Int)), (match parseObjectRef m.root with
              | none => some none
              | some rt => match m.get rt with
                | none => some none
                | some cat => match parseObjectRef (extractDictValue cat b!"/Pages") with
                  | none => some none
                  | some p => findParent m.get fuel p k) = o →
              ∀ m' : Manip, m'.get = m.get → m'.root = m.root → (Edit.delete q).call m' fuel = (match o with
                | none => none
                | some none => some none
                | some (some parent) => some ((m'.objects.get parent).bind fun s => (deleteText s k).map fun t =>
                    { m' with objects := m'.objects.set parent t })) := by
            intro o ho m' hg hrt
            simp only [Edit.call]
            unfold deletePage
            rw [pageObject_source hg hrt, hoq, hg, hrt]
            simp only [Option.bind_some]
            subst ho
            rfl
          generalize ho : (match parseObjectRef m.root with
              | none => some none
              | some rt => match m.get rt with
                | none => some none
                | some cat => match parseObjectRef (extractDictValue cat b!"/Pages") with
                  | none => some none
                  | some p => findParent m.get fuel p k) = o at red
          have red := red o rfl
          cases o with
          | none => exact .inl red
          | some o =>
            cases o with
            | none => exact .inr (.inl red)
            | some y =>
              refine .inr (.inr ⟨y, fun s => deleteText s k, ?_, red⟩)
              obtain ⟨s, hs, ht⟩ := pageObject_page hop
              have hy : ∃ s, m.get y = some s ∧ extractDictValue s b!"/Type" ≠ b!"/Page" := by
                split at ho
                · simp at ho
                · split at ho
                  · simp at ho
                  · split at ho
                    · simp at ho
                    · exact findParent_node _ _ _ _ ho
              obtain ⟨s', hs', ht'⟩ := hy
              rintro rfl
              rw [hs] at hs'
              simp at hs'
              subst hs'
              exact ht' ht
      rcases hdel with hd | hd | ⟨y, f, hy, hd⟩
      · refine .inl ⟨?_, by simp only [edits, hd m rfl rfl]⟩
        rw [edits, hrw m rfl rfl]
        cases ht : ((m.objects.get n).bind fun s => (some (rotateText s a)).map fun t => { m with objects := m.objects.set n t }) with
        | none => simp only [edits, hd m rfl rfl]
        | some m1 =>
          have e := call_source ((hrw m rfl rfl).trans (congrArg some ht))
          simp only [edits, hd m1 e.1 e.2]
      · have : edits m fuel [.rotate p a, .delete q] = edits m fuel [.delete q, .rotate p a] := by
          simp only [edits, hd m rfl rfl]
          cases hr : Edit.call m fuel (.rotate p a) with
          | none => rfl
          | some d =>
            cases d with
            | none => simp only [hd m rfl rfl]
            | some m1 => simp only [hd m1 (call_source hr).1 (call_source hr).2]
        rw [this]
        exact same _
      · exact rewrites_commute hrw hd (Ne.symm hy)

/-- The hypotheses of `C166_turns_commute` hold for the pages 1 and 3 of the document of four pages, whose enumeration finishes. -/
example : pageObject manip4 9 1 = some (some 3) ∧ pageObject manip4 9 3 = some (some 5) ∧
    (edits manip4 9 [.rotate 1 90, .delete 2]).map (fun m => (m.objects.get 2, m.objects.get 3)) =
      some (some b!"2 0 obj\n<</Type/Pages/Kids[3 0 R 5 0 R 6 0 R ] /Count 2>>\nendobj", some b!"3 0 obj\n<</Type/Page/Parent 2 0 R/Rotate 90 >>\nendobj") := by
  decide +kernel

/-- Turns in any order, interleaved: those of `C166_rotations_partial` for the document of four pages. -/
example : ∃ m', edits manip4 9 [.rotate 1 90, .rotate 3 180, .rotate 1 180] = some m' ∧
    (∃ s, m'.objects.get (3 : Nat) = some s ∧ RotationIs s 270) ∧ (∃ s, m'.objects.get (5 : Nat) = some s ∧ RotationIs s 180) ∧
    m'.objects.get 4 = manip4.objects.get 4 := by
  have hr : ∀ n : Nat, n ∈ [3, 4, 5, 6] → manip4.objects.get n = some (itoa n ++ b!" 0 obj\n<</Type/Page/Parent 2 0 R>>\nendobj") ∧
      RotationIs (itoa n ++ b!" 0 obj\n<</Type/Page/Parent 2 0 R>>\nendobj") 0 ∧
      (¬ b!"/Rotate" <:+: itoa n ++ b!" 0 obj\n<</Type/Page/Parent 2 0 R>>\nendobj" →
        b!">>" <:+: itoa n ++ b!" 0 obj\n<</Type/Page/Parent 2 0 R>>\nendobj") ∧ -9223372036854775808 ≤ (0 : Int) ∧ (0 : Int) + 270 ≤ 9223372036854775807 := by
    intro n hn
    have : n = 3 ∨ n = 4 ∨ n = 5 ∨ n = 6 := by simpa using hn
    refine ⟨?_, .absent _ ?_, fun _ => ?_, by decide, by decide⟩
    · rcases this with rfl | rfl | rfl | rfl <;> decide +kernel
    · rcases this with rfl | rfl | rfl | rfl <;> exact notIn _ _ (by decide +kernel)
    · rcases this with rfl | rfl | rfl | rfl <;> exact isIn _ _ (by decide +kernel)
  obtain ⟨m', e1, e2, e3⟩ := C166_rotations_partial manip4 9 [3, 4, 5, 6] (by decide +kernel) (by decide) _ (fun _ => 0) hr
    [(1, 90), (3, 180), (1, 180)] (by decide)
  refine ⟨m', e1, ?_, ?_, ?_⟩
  · obtain ⟨s, s1, s2⟩ := e2 0 3 rfl
    exact ⟨s, s1, by simpa [turnsOf] using s2⟩
  · obtain ⟨s, s1, s2⟩ := e2 2 5 rfl
    exact ⟨s, s1, by simpa [turnsOf] using s2⟩
  · obtain ⟨m2, f1, -⟩ : ∃ m2, edits manip4 9 [.rotate 1 90, .rotate 3 180, .rotate 1 180] = some m2 ∧ True := ⟨m', e1, trivial⟩
    have : (edits manip4 9 [.rotate 1 90, .rotate 3 180, .rotate 1 180]).map (fun m => m.objects.get 4) = some (manip4.objects.get 4) := by
      decide +kernel
    have e1' : edits manip4 9 [.rotate 1 90, .rotate 3 180, .rotate 1 180] = some m' := e1
    rw [e1'] at this
    simpa using this

theorem perm_sum {l l' : List Int} (h : l.Perm l') : l.sum = l'.sum := by
  induction h with
  | nil => rfl
  | cons _ _ ih => simp [ih]
  | swap => simp; omega
  | trans _ _ i1 i2 => exact i1.trans i2

/-- C166: so the order of the turns does not matter. -/
theorem C166_order_partial (m : Manip) (fuel : Nat) (nums : List Nat) (hall : allPages m.get m.root fuel = some (some (nums.map Int.ofNat)))
    (hnd : nums.Nodup) (text : Nat → Bytes) (rot : Nat → Int) (hp : ∀ n ∈ nums, m.objects.get n = some (text n) ∧ RotationIs (text n) (rot n) ∧
      (¬ b!"/Rotate" <:+: text n → b!">>" <:+: text n) ∧ -9223372036854775808 ≤ rot n ∧ rot n + 270 ≤ 9223372036854775807)
    (calls calls' : List (Int × Int)) (hperm : calls.Perm calls')
    (hc : ∀ c ∈ calls, 1 ≤ c.1 ∧ c.1 ≤ nums.length ∧ (c.2 = 90 ∨ c.2 = 180 ∨ c.2 = 270)) :
    ∃ m1 m2, edits m fuel (calls.map fun c => .rotate c.1 c.2) = some m1 ∧ edits m fuel (calls'.map fun c => .rotate c.1 c.2) = some m2 ∧
      ∀ n ∈ nums, ∃ r s1 s2, m1.objects.get n = some s1 ∧ m2.objects.get n = some s2 ∧ RotationIs s1 r ∧ RotationIs s2 r := by
  obtain ⟨m1, a1, a2, -⟩ := C166_rotations_partial m fuel nums hall hnd text rot hp calls hc
  obtain ⟨m2, b1, b2, -⟩ := C166_rotations_partial m fuel nums hall hnd text rot hp calls' (fun c h => hc c (hperm.mem_iff.2 h))
  refine ⟨m1, m2, a1, b1, fun n hn => ?_⟩
  obtain ⟨i, hi⟩ := List.getElem?_of_mem hn
  obtain ⟨s1, c1, c2⟩ := a2 i n hi
  obtain ⟨s2, d1, d2⟩ := b2 i n hi
  have ht : (turnsOf (i + 1) calls).Perm (turnsOf (i + 1) calls') := (hperm.filter _).map _
  have hs : (turnsOf (i + 1) calls).sum = (turnsOf (i + 1) calls').sum := perm_sum ht
  refine ⟨_, s1, s2, c1, d1, c2, ?_⟩
  by_cases h0 : turnsOf ((i : Int) + 1) calls = []
  · rw [if_pos h0]
    rw [h0] at ht
    rwa [if_pos ht.nil_eq.symm] at d2
  · rw [if_neg h0, hs]
    rwa [if_neg (fun h => h0 (by rw [h] at ht; exact ht.eq_nil))] at d2

end Pdfer.Props
