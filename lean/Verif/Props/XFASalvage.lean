import Verif.Props.XFABuilt
import Verif.Proofs.XFASalvage

/-! C158: the XFA streams of a file that was cut off. -/

namespace Pdfer.Props

open Pdfer.Go Pdfer.XFA Pdfer.Spec Pdfer.Spec.XFA

/-- C158 (partial: the conditions of C104, no `stream` and no `<<` in the bytes stored for a stream, each object header written once): wherever
after its last object and before its `startxref` a file written by `BuildFromXFA` is cut off, `ExtractAllXFAStreams` gets from the rest every
stream with its data, under the number of its place in the list, and no other stream.  What it says of the compression is then true. -/
theorem C158_cut_partial (src : Src) (env : Writer.Env) (hcr : env.crypt = none) (ss : List XStream) (hne : ss ≠ [])
    (hn : (ss.map (·.name)).Nodup) (hk : ∀ x ∈ ss, x.name ∈ Spec.XFA.streamNames)
    (hs : ∀ x ∈ ss, ∃ d, Storable env.z src.zip x d ∧ Recoverable (Spec.XFA.stored env.z x d))
    (hfit : FileFits env (Writer.run env (buildOps ss)))
    (honce : ∀ i j, OccursAt b!"/AcroForm" (buildFromXFA env ss) i → OccursAt b!"/AcroForm" (buildFromXFA env ss) j → i = j)
    (hheads : ∀ n, 1 ≤ n → n ≤ ss.length + 1 → ∀ i j, OccursAt (natDec n ++ b!" 0 obj") (buildFromXFA env ss) i →
      OccursAt (natDec n ++ b!" 0 obj") (buildFromXFA env ss) j → i = j)
    (cut : Bytes) (hc : LostTable (buildFromXFA env ss) cut) :
    ∃ m, extractAll src cut = .ok m ∧
      (∀ (i : Nat) (x : XStream), ss[i]? = some x → ∃ d, x.data = some d ∧ m.get x.name = some { data := d, num := (i : Int) + 1, compressed := x.compress }) ∧
      ∀ k, k ∉ ss.map (·.name) → m.get k = none :=
  extract_cut src env hcr ss hne hn hk hs hfit honce hheads cut hc

/-- The positions of a text in a file. -/
def occurrences (pat F : Bytes) : List Nat := (List.range (F.length + 1)).filter fun i => pat.isPrefixOf (F.drop i)

theorem occurrences_mem {pat F : Bytes} (hp : pat ≠ []) {i : Nat} (h : OccursAt pat F i) : i ∈ occurrences pat F := by
  rw [Incremental.occursAt_iff hp] at h
  unfold occurrences
  rw [List.mem_filter, List.mem_range]
  refine ⟨?_, List.isPrefixOf_iff_prefix.2 h⟩
  apply Classical.byContradiction
  intro hn
  rw [List.drop_of_length_le (by omega)] at h
  exact hp (List.prefix_nil.1 h)

theorem occurrences_once {pat F : Bytes} (hp : pat ≠ []) (hl : (occurrences pat F).length ≤ 1) : ∀ i j, OccursAt pat F i → OccursAt pat F j → i = j := by
  intro i j hi hj
  have h1 := occurrences_mem hp hi
  have h2 := occurrences_mem hp hj
  cases ho : occurrences pat F with
  | nil => rw [ho] at h1; simp at h1
  | cons a r =>
    rw [ho] at h1 h2 hl
    have : r = [] := List.length_eq_zero_iff.1 (by simp only [List.length_cons] at hl; omega)
    subst this
    simp at h1 h2
    omega

-- The two streams of C104, from every file that ends between its last object and its `startxref`.
example : ∃ a b, a + 60 ≤ b ∧ ∀ k, a ≤ k → k ≤ b → ∃ m, extractAll xfaSrc (exXfaFile.take k) = .ok m ∧
    m.get b!"template" = some { data := b!"<t/>", num := 1, compressed := true } := by
  have abs : ∀ {p s : Bytes}, p ≠ [] → index p s = none → Absent p s := fun hp h => (Incremental.absent_iff hp).2 (Go.noOcc_iff_index.2 h)
  refine ⟨(exXfaFile.length - 20) - 70, exXfaFile.length - 20, ?_, ?_⟩
  · decide +kernel
  intro k h1 h2
  have hcut : LostTable (buildFromXFA xfaEnv exXfa) (exXfaFile.take k) := by
    refine ⟨List.take_prefix _ _, ?_, ?_⟩
    · intro i hi
      have hm := occurrences_mem (by decide) hi
      have key : ∀ i ∈ occurrences b!"endobj" exXfaFile, i + 6 ≤ exXfaFile.length - 20 - 70 := by decide +kernel
      have := key i hm
      rw [List.length_take]
      omega
    · rw [Incremental.absent_iff (by decide)]
      intro i hi
      have hi' : b!"startxref" <+: exXfaFile.drop i := by
        have := hi
        rw [List.drop_take] at this
        exact this.trans (List.take_prefix _ _)
      have hm := occurrences_mem (pat := b!"startxref") (by decide) ((Incremental.occursAt_iff (by decide) _).2 hi')
      have key : ∀ i ∈ occurrences b!"startxref" exXfaFile, exXfaFile.length - 20 ≤ i := by decide +kernel
      have := key i hm
      have hl := hi.length_le
      rw [List.length_drop, List.length_take] at hl
      simp only [List.length_cons, List.length_nil] at hl
      omega
  obtain ⟨m, hm, hget, _⟩ := C158_cut_partial xfaSrc xfaEnv rfl exXfa exXfa_ok.1 exXfa_ok.2.1 exXfa_ok.2.2.1 (by
      intro x hx
      simp only [exXfa, List.mem_cons, List.not_mem_nil, or_false] at hx
      rcases hx with rfl | rfl
      · exact ⟨_, ⟨rfl, by decide, fun _ => by decide, by decide, abs (by decide) (by decide), abs (by decide) (by decide)⟩,
          ⟨by decide, abs (by decide) (by decide), abs (by decide) (by decide)⟩⟩
      · exact ⟨_, ⟨rfl, by decide, fun _ => by decide, by decide, abs (by decide) (by decide +kernel), abs (by decide) (by decide +kernel)⟩,
          ⟨by decide, abs (by decide) (by decide +kernel), abs (by decide) (by decide +kernel)⟩⟩)
    exXfa_fits.toFileFits exXfa_ok.2.2.2.2 (by
      intro n hn1 hn2
      apply occurrences_once (by simp)
      have key : ∀ n, n < 4 → 1 ≤ n → (occurrences (natDec n ++ b!" 0 obj") (buildFromXFA xfaEnv exXfa)).length ≤ 1 := by decide +kernel
      exact key n (by simp [exXfa] at hn2; omega) hn1) _ hcut
  refine ⟨m, hm, ?_⟩
  obtain ⟨d, hd, hg⟩ := hget 0 _ rfl
  simp only [Option.some.injEq] at hd
  subst hd
  exact hg

/-- C158 (violated): a stream that contains `<<`, read from a complete file and from the same file without its table.  The second reading
loses everything before the `<<`. -/
theorem C158_lost_violated : ∃ (ss : List XStream) (m m' : Map Bytes Info),
    extractAll xfaSrc (buildFromXFA xfaEnv ss) = .ok m ∧ (m.get b!"template").map (·.data) = some b!"<t>a << b</t>" ∧
    extractAll xfaSrc ((buildFromXFA xfaEnv ss).take ((buildFromXFA xfaEnv ss).length - 20)) = .ok m' ∧ (m'.get b!"template").map (·.data) = some b!"<< b</t>" := by
  refine ⟨[{ name := b!"template", data := some b!"<t>a << b</t>", compress := false }],
    [(b!"template", { data := b!"<t>a << b</t>", num := 1, compressed := false })], [(b!"template", { data := b!"<< b</t>", num := 1, compressed := false })],
    by decide +kernel, by decide +kernel, by decide +kernel, by decide +kernel⟩

/-- What an update adds for the template: its stream again, with other data. -/
def newCopy : Bytes := b!"\n1 0 obj\n<</Length 6 /Type /EmbeddedFile >>\nstream\n<new/>\nendstream\nendobj\n"

/-- C158 (violated): the objects of a file and of its update, without the tables.  The data read are those from before the update, although
the new copy of the object is complete. -/
theorem C158_old_copy_violated : ∃ (ss : List XStream) (cut : Bytes) (m m' : Map Bytes Info),
    cut <+: buildFromXFA xfaEnv ss ∧ extractAll xfaSrc cut = .ok m ∧ extractAll xfaSrc (cut ++ newCopy) = .ok m' ∧
    (m.get b!"template").map (·.data) = some b!"<old/>" ∧ (m'.get b!"template").map (·.data) = some b!"<old/>" := by
  refine ⟨[{ name := b!"template", data := some b!"<old/>", compress := false }],
    (buildFromXFA xfaEnv [{ name := b!"template", data := some b!"<old/>", compress := false }]).take
     ((buildFromXFA xfaEnv [{ name := b!"template", data := some b!"<old/>", compress := false }]).length - 20),
    [(b!"template", { data := b!"<old/>", num := 1, compressed := false })], [(b!"template", { data := b!"<old/>", num := 1, compressed := false })],
    List.take_prefix _ _, by decide +kernel, by decide +kernel, by decide +kernel, by decide +kernel⟩

end Pdfer.Props
