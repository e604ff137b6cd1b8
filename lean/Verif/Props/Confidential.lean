import Verif.Proofs.Confidential
import Verif.Props.Protect

/-! C162: what a file protected by passwords shows without them. -/

namespace Pdfer.Props

open Pdfer.Go Pdfer.Spec Pdfer.Spec.Protect Pdfer.Crypto
open Pdfer.Writer (Writer)

/-- C162 for streams (partial: table mode, dictionaries passed as literals, no earlier `Write`): two series of calls that
differ in nothing but the contents of non-empty streams write the same file, byte for byte, if the cipher texts are the
same.  So the file tells about a stream its cipher text, its dictionary and nothing else. -/
theorem C162_streams_partial (env : Writer.Env) (hfair : FairOrder env) (enc : Int → Bytes → Option Bytes) (hc : env.crypt = some enc)
    (ops ops' : List Writer.Op) (hsame : ops.map hide = ops'.map hide) (hfresh : ∀ op ∈ ops, Writer.FreshDict op) (hwrite : .write ∉ ops)
    (hx : (Writer.run env ops).useXRefStream = false)
    (he : ∀ n o o' s s', (Writer.run env ops).objects.get n = some o → (Writer.run env ops').objects.get n = some o' →
      o.stream = some s → o'.stream = some s' → ∃ c, enc n s = some c ∧ enc n s' = some c) :
    (Writer.write env (Writer.run env ops)).1 = (Writer.write env (Writer.run env ops')).1 :=
  Confidential.write_same env hfair enc hc _ _ (Confidential.run_same env ops ops' hsame hfresh hwrite) hx
    (Writer.noStm env ops (fun _ hon => hfresh _ hon)) he

/-- C162 does not hold for objects that are not streams: whatever the passwords, and whatever is called before and after,
every such object – document information, form fields and their values, annotations – stands in the file as it was stored. -/
theorem C162_objects_violated (P : Prim) (g : Random) (newID userPw ownerPw : Bytes) (perm : Int) (em : Bool) (env : Writer.Env)
    (hfair : FairOrder env) (before after : List Writer.Op) (w : Writer)
    (hw : w = protectedWriter P env g newID userPw ownerPw perm em before after) (hx : w.useXRefStream = false) (ho : w.useObjectStream = false)
    (n : Int) (content : Bytes) (hn : w.objects.get n = some ⟨some content, none, none⟩) :
    ∃ p, OccursAt (itoa n ++ b!" 0 obj\n" ++ content ++ b!"\nendobj\n") (Writer.write env w).1 p := by
  clear hw
  have hm := (Writer.sortedObjs_mem env hfair w n _).2 hn
  obtain ⟨A, B, _, _, h3⟩ := Protect.body_at env n _ rfl (Writer.sortedObjs env w) (Writer.header w.pdfVersion).length w.heap hm
  refine ⟨(Writer.header w.pdfVersion ++ A).length, Writer.header w.pdfVersion ++ A,
    B ++ (Writer.xrefTable w.nextObjNum (Writer.tableBody env w).2.1 ++ Writer.trailer w ++
      Writer.startxref ((Writer.header w.pdfVersion).length + (Writer.tableBody env w).1.length)), ?_, rfl⟩
  rw [Writer.write_table env w hx ho]
  have hb : (Writer.tableBody env w).1 = A ++ (itoa n ++ b!" 0 obj\n" ++ content ++ b!"\nendobj\n") ++ B := h3
  generalize (Writer.tableBody env w).2.1 = ps at *
  generalize (Writer.header w.pdfVersion).length + (Writer.tableBody env w).1.length = p at *
  rw [hb]
  simp only [List.append_assoc]

/-! Concrete cases. -/

/-- A cipher that hides everything but the length. -/
def hideEnv : Writer.Env := { plainEnv with crypt := some fun _ s => some (List.replicate s.length 42) }
def hideOps (s : Bytes) : List Writer.Op :=
  [.addObject (some b!"<</Type/Catalog>>"), .addStream (.fresh [(b!"Type", .str b!"/X")]) (some s) false, .setRoot 1]

example : (Writer.write hideEnv (Writer.run hideEnv (hideOps b!"secret"))).1 = (Writer.write hideEnv (Writer.run hideEnv (hideOps b!"public"))).1 := by
  refine C162_streams_partial hideEnv plainEnv_fair _ rfl (hideOps b!"secret") (hideOps b!"public") rfl ?_ (by simp [hideOps]) rfl ?_
  · intro op h
    simp only [hideOps, List.mem_cons, List.not_mem_nil, or_false] at h
    rcases h with rfl | rfl | rfl
    · trivial
    · exact ⟨_, rfl, by decide, by decide⟩
    · trivial
  · intro n o o' s s' h1 h2 h3 h4
    have hs : ∀ t : Bytes, ∀ m p, (Writer.run hideEnv (hideOps t)).objects.get m = some p → ∀ u, p.stream = some u → u = t := by
      intro t m p hp u hu
      have : (Writer.run hideEnv (hideOps t)).objects =
          Map.set (Map.set [] 1 ⟨some b!"<</Type/Catalog>>", none, none⟩) 2 ⟨none, some t, some 0⟩ := rfl
      rw [this, Map.get_set] at hp
      split at hp
      · cases hp; simpa using hu.symm
      · rw [Map.get_set] at hp
        split at hp
        · cases hp; simp at hu
        · simp [Map.get] at hp
    rw [hs _ _ _ h1 _ h3, hs _ _ _ h2 _ h4]
    exact ⟨_, rfl, rfl⟩

/-- The catalog can be read in the file of C161 without a password. -/
example : ∃ p, OccursAt b!"1 0 obj\n<</Type/Catalog>>\nendobj\n" (Writer.write proEnv proWriter).1 p :=
  C162_objects_violated goPrim witRandom proID b!"user" b!"owner" (-4) false proEnv plainEnv_fair proOps [] proWriter proWriter_eq.symm
    rfl rfl 1 b!"<</Type/Catalog>>" rfl

end Pdfer.Props
