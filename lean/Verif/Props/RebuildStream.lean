import Verif.Proofs.RebuildStream
import Verif.Props.XFABuilt

/-! Property C106: streams that are not replaced. -/

namespace Pdfer.Props

open Pdfer.Go Pdfer.Spec Pdfer.Spec.XFA Pdfer.XFA

/-- The body of a stream object: its dictionary with `/Length` somewhere between other entries, its data, and whatever follows. -/
def streamBody (x y : Bytes) (s tail : Bytes) : Bytes :=
  10 :: (b!"<<" ++ (x ++ b!"/Length " ++ natDec s.length ++ y) ++ b!">>") ++ [10] ++ b!"stream" ++ 10 :: (s ++ tail)

/-- C106 (partial: streams with their length as a number, not in object streams): a stream of the file that is not named as an XFA stream
is in the rebuilt file under its number with its data, all of them and nothing else, and their length in the dictionary; whatever the other
entries of its dictionary are (they do not survive, see `C106_dictionary_violated`) and whatever the data are, if they do not begin with a
line end. -/
theorem C106_stream_kept_partial (unz : Bytes → Option Bytes) (env : Writer.Env) (hc : env.crypt = none) (hf : FairOrder env) (pdf out : Bytes)
    (m : Map Bytes Info) (n : Nat) (before x y s tail rest : Bytes) (hl : LastObject pdf n before (streamBody x y s tail) rest)
    (hx : x = [] ∨ x.head? = some 47) (hy : AfterNumber y) (hyl : Absent b!"/Length" y)
    (hs : Absent b!"stream" (10 :: (b!"<<" ++ (x ++ b!"/Length " ++ natDec s.length ++ y) ++ b!">>") ++ [10]))
    (hh : ∃ c, s.head? = some c ∧ c ≠ 13 ∧ c ≠ 10) (hsize : (streamBody x y s tail).length ≤ 9223372036854775807)
    (hn : ∀ names, xfaMap unz pdf = .ok names → ∀ k, names.get k ≠ some (n : Int))
    (h : rebuildStreams unz env pdf m = .ok out) :
    ∃ d : Writer.Dict, d.get b!"Length" = some (.int s.length) ∧
      (natDec n ++ b!" 0 obj\n" ++ Writer.formatDictionary d ++ b!"\nstream\n" ++ s ++ b!"\nendstream\nendobj\n") <:+: out := by
  unfold rebuildStreams at h
  obtain ⟨m0, names, h1, h2, _, _, h3⟩ := rebuild_texts unz env hc hf pdf out _ h
  obtain ⟨hnd, o, ho, hg⟩ := found_object unz hl h1
  have hnames : ∀ k, names.get k ≠ some (n : Int) := by
    rcases h2 with h2 | ⟨_, rfl⟩
    · exact hn names h2
    · intro k; simp [Map.get]
  have hg' := (foldl_replace_get env.z names n (known.filterMap fun n => (m.get n).bind fun i => if i.data = [] then none else some (n, i.data)) m0
    (fun u _ => hnames u.1)).trans hg
  have hmem := (Map.get_eq_some_iff _ (foldl_replace_nodup env.z names _ m0 hnd) _ _).1 hg'
  have hstream : o.stream = some s := by
    have hi : index b!"endobj" (streamBody x y s tail ++ b!"endobj" ++ rest) = some (streamBody x y s tail).length := by
      rw [List.append_assoc]
      exact Manipulate.index_first (by decide) ((Incremental.absent_iff (by decide)).1 hl.noEnd)
    have ht : (streamBody x y s tail ++ b!"endobj" ++ rest).take (streamBody x y s tail).length = streamBody x y s tail := by
      rw [List.append_assoc]; exact List.take_left' rfl
    have hsl : s.length ≤ (streamBody x y s tail).length := by simp [streamBody]; omega
    have hlen := length_read x y s.length (by omega) hx hy hyl
    generalize hD : 10 :: (b!"<<" ++ (x ++ b!"/Length " ++ natDec s.length ++ y) ++ b!">>") ++ [10] = D at hs hlen
    have hb : streamBody x y s tail = D ++ (b!"stream" ++ 10 :: (s ++ tail)) := by rw [← hD]; simp [streamBody]
    rw [hb] at hi ht hsize
    rw [hb] at ho
    have hi2 : index b!"stream" (D ++ (b!"stream" ++ 10 :: (s ++ tail))) = some D.length :=
      Manipulate.index_first (by decide) ((Incremental.absent_iff (by decide)).1 hs)
    have hk : (D ++ (b!"stream" ++ 10 :: (s ++ tail))).drop (D.length + 6) = 10 :: (s ++ tail) := by
      rw [← List.drop_drop, List.drop_left' rfl]; rfl
    have hdw : ((10 : UInt8) :: (s ++ tail)).dropWhile Incremental.isEol = s ++ tail := by
      obtain ⟨c, hc1, hc2, hc3⟩ := hh
      cases s with
      | nil => simp at hc1
      | cons d s =>
        simp only [List.head?_cons, Option.some.injEq] at hc1
        subst hc1
        rw [List.dropWhile_cons, if_pos (by decide), List.cons_append, List.dropWhile_cons, if_neg]
        simp [Incremental.isEol, hc2, hc3]
    unfold rebuildObj at ho
    rw [hi] at ho
    simp only [ht, hi2] at ho
    rw [List.take_left' rfl, hlen] at ho
    simp only [hk, hdw] at ho
    rw [if_neg (by simp at hsize ⊢; omega), if_pos (by simp; omega), if_neg (by omega)] at ho
    simp only [Res.bind, Int.toNat_natCast, List.take_left' rfl] at ho
    injection ho with ho
    injection ho with ho
    rw [← ho]
  exact ⟨o.dict.set b!"Length" (.int s.length), Map.get_set_eq _ _ _, (h3 hnd n o hmem).1 _ hstream⟩

/-- The padded file of the examples of C106 with one more stream, object 7, after its catalog. -/
def exKeptFile : Bytes :=
  exXfaPadded.take 365 ++ b!"\n" ++ (natDec 7 ++ b!" 0 obj" ++ (streamBody b!"/Kind /Note " b!" /Last 1 " b!"<note/>" b!"\nendstream\n" ++ b!"endobj" ++ exXfaPadded.drop 365))

/-- The result of rebuilding it. -/
def exKeptRebuilt : Bytes := match rebuildStreams xfaZip.zlib xfaEnv exKeptFile exXfaUpdate with | .ok r => r | _ => []

theorem exKeptRebuilt_ok : rebuildStreams xfaZip.zlib xfaEnv exKeptFile exXfaUpdate = .ok exKeptRebuilt := by decide +kernel

/-- The text after the header of object 7. -/
def exKeptTail : Bytes := streamBody b!"/Kind /Note " b!" /Last 1 " b!"<note/>" b!"\nendstream\n" ++ b!"endobj" ++ exXfaPadded.drop 365

theorem exKept_object : LastObject exKeptFile 7 (exXfaPadded.take 365 ++ b!"\n")
    (streamBody b!"/Kind /Note " b!" /Last 1 " b!"<note/>" b!"\nendstream\n") (exXfaPadded.drop 365) := by
  have abs : ∀ {p s : Bytes}, p ≠ [] → index p s = none → Absent p s := fun hp h => (Incremental.absent_iff hp).2 (noOcc_iff_index.2 h)
  refine ⟨by decide +kernel, by decide, by decide +kernel, abs (by decide) (by decide +kernel), ?_⟩
  intro x y h hxy ⟨ds, w1, g, w2, h1, h2, h3, h4, h5, h6, h7, h8, h9, hh⟩ hp
  obtain ⟨t, ht⟩ := hp
  rw [← ht, hh] at hxy
  have key : ∀ i, i < exKeptTail.length → (b!"obj").isPrefixOf (exKeptTail.drop i) = true → (exKeptTail.take i).getLast? = some 100 := by decide +kernel
  have e : exKeptTail = (x ++ (ds ++ w1 ++ g ++ w2)) ++ (b!"obj" ++ t) := by unfold exKeptTail; rw [hxy]; simp
  have hlt : (x ++ (ds ++ w1 ++ g ++ w2)).length < exKeptTail.length := by rw [e]; simp [List.length_append]
  have := key _ hlt (by rw [e, List.drop_left' rfl]; simp [List.isPrefixOf])
  rw [e, List.take_left' rfl, ← List.append_assoc, List.getLast?_append] at this
  cases hw : w2.getLast? with
  | none => exact h7 (List.getLast?_eq_none_iff.1 hw)
  | some c =>
    rw [hw] at this
    simp at this
    subst this
    exact absurd (h8 _ (List.mem_of_getLast? hw)) (by unfold Manipulate.White; decide)

/-- The stream of the example meets the hypotheses, and its data are in the result. -/
example : ∃ d : Writer.Dict, d.get b!"Length" = some (.int 7) ∧
    (natDec 7 ++ b!" 0 obj\n" ++ Writer.formatDictionary d ++ b!"\nstream\n" ++ b!"<note/>" ++ b!"\nendstream\nendobj\n") <:+: exKeptRebuilt := by
  have abs : ∀ {p s : Bytes}, p ≠ [] → index p s = none → Absent p s := fun hp h => (Incremental.absent_iff hp).2 (noOcc_iff_index.2 h)
  refine C106_stream_kept_partial xfaZip.zlib xfaEnv rfl plainEnv_fair exKeptFile _ exXfaUpdate 7 _ b!"/Kind /Note " b!" /Last 1 " b!"<note/>" b!"\nendstream\n" _
    exKept_object (Or.inr rfl) ⟨b!" ", b!"/Last 1 ", rfl, by decide, Or.inr ⟨b!"Last 1 ", rfl, by decide⟩⟩ (abs (by decide) (by decide))
    (abs (by decide) (by decide +kernel)) ⟨60, rfl, by decide, by decide⟩ (by decide +kernel) ?_ exKeptRebuilt_ok
  intro names h k
  have : xfaMap xfaZip.zlib exKeptFile = .ok [(b!"datasets", 2), (b!"template", 1)] := by decide +kernel
  rw [this] at h
  cases h
  intro hk
  have := (Map.get_eq_some_iff _ (by decide) _ _).1 hk
  revert this
  simp

end Pdfer.Props
