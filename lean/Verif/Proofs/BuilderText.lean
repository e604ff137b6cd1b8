import Verif.Proofs.Builder
import Verif.Proofs.PageTree
import Verif.Proofs.XPages
import Verif.Proofs.OutlineWriter

/-! Built pages are recognised by the readers. -/

namespace Pdfer.Builder

open Pdfer.Go Pdfer.Writer Pdfer.Spec.Builder Pdfer.Crypto Pdfer.Spec.Manipulate Pdfer.Incremental Pdfer.Manipulate

theorem avoid_sep {pat a : Bytes} {c : UInt8} (hc : c ∉ pat) (hp : pat ≠ []) (h : ¬ pat <:+: a) : Avoid pat (a ++ [c]) := by
  intro i hi s ⟨u, hu⟩
  simp only [List.length_append, List.length_singleton] at hi
  rw [List.drop_append_of_le_length (by omega), List.append_assoc] at hu
  by_cases hl : pat.length ≤ (a.drop i).length
  · apply h
    have h1 : pat <+: a.drop i := by
      have := congrArg (List.take pat.length) hu
      rw [List.take_left, List.take_append_of_le_length hl] at this
      rw [this]
      exact List.take_prefix _ _
    exact h1.isInfix.trans (List.drop_suffix _ _).isInfix
  · apply hc
    have h1 : (a.drop i ++ ([c] ++ s))[(a.drop i).length]? = some c := by
      rw [List.getElem?_append_right (Nat.le_refl _)]; simp
    rw [← hu, List.getElem?_append_left (by omega)] at h1
    exact List.mem_of_getElem? h1

theorem avoid_ref {key : Bytes} {c : UInt8} (hd : isDigit c = false) (h1 : c ≠ 45) (h2 : c ≠ 32) (h3 : c ≠ 82) (n : Int) :
    Avoid (c :: key) (ref n) := by
  apply avoid_head
  unfold ref
  simp only [List.mem_append, not_or]
  refine ⟨not_mem_itoa n hd h1, ?_⟩
  have h48 : c ≠ 48 := by rintro rfl; exact absurd hd (by decide)
  simp [h2, h3, h48]

theorem avoid_digits {key d : Bytes} {c : UInt8} (hc : isDigit c = false) (hd : ∀ x ∈ d, isDigit x = true) : Avoid (c :: key) d := by
  apply avoid_head
  intro hm
  rw [hd c hm] at hc
  exact absurd hc (by decide)

theorem avoid_entry_word {key name : Bytes} {c : UInt8} (hs : (32 : UInt8) ∉ c :: key) (hc : c ≠ 47)
    (h : ¬ c :: key <:+: name) : Avoid (c :: key) (b!"/" ++ name ++ b!" ") := by
  apply avoid_sep hs (by simp)
  rintro ⟨x, y, e⟩
  cases x with
  | nil => simp at e; exact hc e.1
  | cons a x =>
    simp only [List.cons_append, List.cons.injEq] at e
    exact h ⟨x, y, e.2⟩

theorem avoid_entry_key {key name : Bytes} (hs : (32 : UInt8) ∉ key) (hn : (47 : UInt8) ∉ name) (h : ¬ key <+: name) :
    Avoid (47 :: key) (b!"/" ++ name ++ b!" ") := by
  intro i hi s hp
  cases i with
  | succ i =>
    have h0 : (47 : UInt8) ∉ name ++ b!" " := by simp [hn]
    exact avoid_head (key := key) h0 i (by simp at hi ⊢; omega) s hp
  | zero =>
    obtain ⟨u, hu⟩ := hp
    simp only [List.drop_zero, List.cons_append, List.nil_append, List.cons.injEq, true_and, List.append_assoc] at hu
    by_cases hl : key.length ≤ name.length
    · apply h
      have := congrArg (List.take key.length) hu
      rw [List.take_left, List.take_append_of_le_length hl] at this
      rw [this]
      exact List.take_prefix _ _
    · apply hs
      have h1 : (name ++ (32 :: s))[name.length]? = some 32 := by
        rw [List.getElem?_append_right (Nat.le_refl _)]; simp
      rw [← hu, List.getElem?_append_left (by omega)] at h1
      exact List.mem_of_getElem? h1

theorem avoid_entries {key : Bytes} {l : List (Bytes × Int)} (h : ∀ e ∈ l, Avoid key (b!"/" ++ e.1 ++ b!" ") ∧ Avoid key (ref e.2)) :
    Avoid key (entries l) := by
  induction l with
  | nil => exact avoid_nil _
  | cons e l ih =>
    unfold entries at ih ⊢
    rw [List.map_cons, List.flatten_cons]
    exact avoid_append (avoid_append (h e (by simp)).1 (h e (by simp)).2) (ih fun x hx => h x (by simp [hx]))

theorem avoid_resources {key : Bytes} (ord : List (Bytes × Int) → List (Bytes × Int)) (hord : ∀ l, (ord l).Perm l) (p : Page)
    (h : ∀ e ∈ p.fonts ++ p.images, Avoid key (b!"/" ++ e.1 ++ b!" ") ∧ Avoid key (ref e.2))
    (h1 : Avoid key b!"/Resources<<") (h2 : Avoid key b!"/Font<<") (h3 : Avoid key b!"/XObject<<") (h4 : Avoid key b!">>") :
    Avoid key (b!"/Resources" ++ resources ord p) := by
  unfold resources
  rw [← List.append_assoc, ← List.append_assoc, ← List.append_assoc]
  refine avoid_append (avoid_append (avoid_append h1 (avoid_ite ?_ (avoid_nil _))) (avoid_ite ?_ (avoid_nil _))) h4
  · refine avoid_append (avoid_append h2 (avoid_entries ?_)) h4
    intro e he
    exact h e (by rw [List.mem_append]; exact .inl ((hord _).mem_iff.1 he))
  · refine avoid_append (avoid_append h3 (avoid_entries ?_)) h4
    intro e he
    exact h e (by rw [List.mem_append]; exact .inr ((hord _).mem_iff.1 he))

/-- The part of a page dictionary behind its type. -/
def pageRest (ord : List (Bytes × Int) → List (Bytes × Int)) (parent contents : Int) (p : Page) : Bytes :=
  ref parent ++ b!"/MediaBox[0 0 " ++ p.width ++ b!" " ++ p.height ++ b!"]/Contents " ++
  ref contents ++ (b!"/Resources" ++ resources ord p) ++ b!">>"

theorem pageText_eq (ord : List (Bytes × Int) → List (Bytes × Int)) (parent contents : Int) (p : Page) :
    pageText ord parent contents p = b!"<</Type/Page/Parent " ++ pageRest ord parent contents p := by
  simp [pageText, pageRest]

theorem avoid_pageRest {key : Bytes} {c : UInt8} (hd : isDigit c = false) (g1 : c ≠ 45) (g2 : c ≠ 32) (g3 : c ≠ 82)
    (ord : List (Bytes × Int) → List (Bytes × Int)) (hord : ∀ l, (ord l).Perm l) (parent contents : Int) (p : Page)
    (hp : PlainPage p) (h : ∀ e ∈ p.fonts ++ p.images, Avoid (c :: key) (b!"/" ++ e.1 ++ b!" "))
    (k1 : clash (c :: key) b!"/Resources<<" = true) (k2 : clash (c :: key) b!"/Font<<" = true) (k3 : clash (c :: key) b!"/XObject<<" = true)
    (k4 : clash (c :: key) b!">>" = true) (k6 : clash (c :: key) b!"/MediaBox[0 0 " = true)
    (k7 : clash (c :: key) b!" " = true) (k8 : clash (c :: key) b!"]/Contents " = true) :
    Avoid (c :: key) (pageRest ord parent contents p) := by
  have hw : ∀ x ∈ p.width, isDigit x = true := fun x hx => hp.1 x (by simp [hx])
  have hh : ∀ x ∈ p.height, isDigit x = true := fun x hx => hp.1 x (by simp [hx])
  have hr := fun n => avoid_ref (key := key) hd g1 g2 g3 n
  unfold pageRest
  refine avoid_append (avoid_append (avoid_append (avoid_append (avoid_append (avoid_append (avoid_append (avoid_append
    (hr _) (avoid_clash k6)) (avoid_digits hd hw)) (avoid_clash k7)) (avoid_digits hd hh)) (avoid_clash k8))
    (hr _)) ?_) (avoid_clash k4)
  exact avoid_resources ord hord p (fun e he => ⟨h e he, hr _⟩) (avoid_clash k1) (avoid_clash k2) (avoid_clash k3) (avoid_clash k4)

theorem pageRest_type (ord : List (Bytes × Int) → List (Bytes × Int)) (hord : ∀ l, (ord l).Perm l) (parent contents : Int) (p : Page)
    (hp : PlainPage p) : Avoid b!"/Type" (pageRest ord parent contents p) := by
  apply avoid_pageRest (by decide) (by decide) (by decide) (by decide) ord hord parent contents p hp ?_ (by decide) (by decide)
    (by decide) (by decide) (by decide) (by decide) (by decide)
  intro e he
  have := hp.2 e he
  exact avoid_entry_key (by decide) this.1 this.2.1

theorem page_absent (ord : List (Bytes × Int) → List (Bytes × Int)) (hord : ∀ l, (ord l).Perm l) (parent contents : Int) (p : Page)
    (hp : PlainPage p) : Spec.Absent b!"endobj" (pageText ord parent contents p) ∧ Spec.Absent b!"stream" (pageText ord parent contents p) := by
  rw [absent_iff (by decide), absent_iff (by decide), pageText_eq]
  constructor
  · refine avoid_noOcc (avoid_append (avoid_clash (by decide)) ?_) (by decide)
    apply avoid_pageRest (by decide) (by decide) (by decide) (by decide) ord hord parent contents p hp ?_ (by decide) (by decide)
      (by decide) (by decide) (by decide) (by decide) (by decide)
    intro e he
    exact avoid_entry_word (by decide) (by decide) (hp.2 e he).2.2.1
  · refine avoid_noOcc (avoid_append (avoid_clash (by decide)) ?_) (by decide)
    apply avoid_pageRest (by decide) (by decide) (by decide) (by decide) ord hord parent contents p hp ?_ (by decide) (by decide)
      (by decide) (by decide) (by decide) (by decide) (by decide)
    intro e he
    exact avoid_entry_word (by decide) (by decide) (hp.2 e he).2.2.2

/-- The key stands only once in the text. -/
theorem only_once {key pre rest : Bytes} (h1 : Avoid key pre) (h2 : NoOcc key ((key ++ rest).drop 1)) (hk : key ≠ []) {a t : Bytes}
    (e : pre ++ (key ++ rest) = a ++ (key ++ t)) : a = pre ∧ t = rest := by
  have hl : a.length = pre.length := by
    rcases Nat.lt_trichotomy a.length pre.length with h | h | h
    · exfalso
      apply h1 a.length h (key ++ rest)
      rw [← List.drop_append_of_le_length (by omega), e, List.drop_left]
      exact List.prefix_append _ _
    · exact h
    · exfalso
      apply h2 (a.length - pre.length - 1)
      rw [List.drop_drop]
      have : 1 + (a.length - pre.length - 1) = a.length - pre.length := by omega
      rw [this]
      have e2 := congrArg (List.drop a.length) e
      rw [List.drop_left, List.drop_append, List.drop_eq_nil_of_le (by omega), List.nil_append] at e2
      rw [e2]
      exact List.prefix_append _ _
  have := List.append_inj e hl.symm
  refine ⟨this.1.symm, ?_⟩
  exact (List.append_cancel_left this.2).symm

theorem type_unique (n : Int) (x tail : Bytes) (hx : (47 : UInt8) ∉ x) (ht : Avoid b!"/Type" tail) {a t : Bytes}
    (e : (itoa n ++ x) ++ (b!"/Type" ++ tail) = a ++ (b!"/Type" ++ t)) : t = tail := by
  refine (only_once ?_ ?_ (by decide) e).2
  · apply avoid_head
    simp only [List.mem_append, not_or]
    exact ⟨not_mem_itoa n (by decide) (by decide), hx⟩
  · exact avoid_noOcc (avoid_append (a := b!"Type") (avoid_clash (by decide)) ht) (by decide)

/-- An object as GetObject returns it. -/
def wrapped (n : Int) (c : Bytes) : Bytes := itoa n ++ b!" 0 obj\n" ++ c ++ b!"\nendobj"

theorem typed (n : Int) (name tail : Bytes) (hn : Avoid b!"/Type" (b!"/" ++ (name ++ tail)))
    (hh : ∀ c, tail.head? = some c → White c ∨ c = 60 ∨ c = 62 ∨ c = 47) :
    TypeIs ((itoa n ++ b!" 0 obj\n<<") ++ (b!"/Type" ++ (b!"/" ++ (name ++ tail)))) (b!"/" ++ name) := by
  refine .inr ⟨tail, hh, ⟨itoa n ++ b!" 0 obj\n<<", ?_, by simp⟩, ?_⟩
  · rw [← noOcc_iff_infix]
    apply avoid_noOcc _ (by decide)
    apply avoid_head
    simp only [List.mem_append, not_or]
    exact ⟨not_mem_itoa n (by decide) (by decide), by decide⟩
  · intro a c b e
    have e2 : (itoa n ++ b!" 0 obj\n<<") ++ (b!"/Type" ++ (b!"/" ++ (name ++ tail))) = a ++ (b!"/Type" ++ (c :: b)) := by
      rw [e]; simp
    have := type_unique n b!" 0 obj\n<<" _ (by decide) hn e2
    simp only [List.cons_append, List.nil_append, List.cons.injEq] at this
    rw [this.1]
    simp [White]

theorem page_recognised (ord : List (Bytes × Int) → List (Bytes × Int)) (hord : ∀ l, (ord l).Perm l) (n parent contents : Int) (p : Page)
    (hp : PlainPage p) : PageText (wrapped n (pageText ord parent contents p)) ∧ SaysPage (wrapped n (pageText ord parent contents p)) := by
  have e : wrapped n (pageText ord parent contents p) =
      (itoa n ++ b!" 0 obj\n<<") ++ (b!"/Type" ++ (b!"/" ++ (b!"Page" ++ (b!"/Parent " ++ pageRest ord parent contents p ++ b!"\nendobj")))) := by
    rw [wrapped, pageText_eq]; simp
  have ht : Avoid b!"/Type" (b!"/" ++ (b!"Page" ++ (b!"/Parent " ++ pageRest ord parent contents p ++ b!"\nendobj"))) := by
    have : b!"/" ++ (b!"Page" ++ (b!"/Parent " ++ pageRest ord parent contents p ++ b!"\nendobj")) =
      b!"/Page/Parent " ++ (pageRest ord parent contents p ++ b!"\nendobj") := by simp
    rw [this]
    exact avoid_append (avoid_clash (by decide)) (avoid_append (pageRest_type ord hord parent contents p hp) (avoid_clash (by decide)))
  rw [e]
  constructor
  · refine typed n b!"Page" _ ht ?_
    intro c hc
    simp at hc
    exact .inr (.inr (.inr hc.symm))
  · refine ⟨?_, .inl ⟨itoa n ++ b!" 0 obj\n<<", b!"/Parent " ++ pageRest ord parent contents p ++ b!"\nendobj", by simp⟩⟩
    rintro (⟨a, b, h⟩ | ⟨a, b, h⟩)
    · have := type_unique n b!" 0 obj\n<<" _ (by decide) ht (a := a) (t := b!"/Pages" ++ b) (by rw [← h]; simp)
      simp at this
    · have := type_unique n b!" 0 obj\n<<" _ (by decide) ht (a := a) (t := b!" /Pages" ++ b) (by rw [← h]; simp)
      simp at this

end Pdfer.Builder

namespace Pdfer.Builder

open Pdfer.Go Pdfer.Writer Pdfer.Spec.Builder Pdfer.Crypto Pdfer.Spec.Manipulate Pdfer.Incremental Pdfer.Manipulate Pdfer.Outline

theorem spaced_refs : ∀ nums : List Nat, nums ≠ [] → (nums.map fun n => refText n ++ b!" ").flatten = refsText nums ++ b!" "
  | [], h => absurd rfl h
  | [n], _ => by simp [refsText]
  | n :: m :: ns, _ => by
    rw [List.map_cons, List.flatten_cons, spaced_refs (m :: ns) (by simp), refsText_cons]
    simp

theorem ref_toNat {n : Int} (h : 0 < n) : ref n = refText n.toNat := by
  have := ref_nat h
  exact this

theorem kids_text {pages : List Int} (hp : ∀ n ∈ pages, 0 < n) (hne : pages ≠ []) :
    b!"[" ++ (pages.map fun n => ref n ++ b!" ").flatten ++ b!"]" = kidsArray [] (pages.map Int.toNat) b!" " := by
  have : (pages.map fun n => ref n ++ b!" ") = (pages.map Int.toNat).map fun n => refText n ++ b!" " := by
    rw [List.map_map]
    apply List.map_congr_left
    intro n hn
    rw [ref_toNat (hp n hn)]
    rfl
  rw [this, spaced_refs _ (by simpa using hne)]
  simp [kidsArray, refsText]

/-- What follows the kids of a page tree. -/
def pagesEnd (n : Nat) : Bytes := b!"/Count " ++ natDec n ++ b!">>\nendobj"

theorem pages_wrapped (n : Int) {pages : List Int} (hp : ∀ n ∈ pages, 0 < n) (hne : pages ≠ []) :
    wrapped n (pagesText pages) = (itoa n ++ b!" 0 obj\n<</Type/Pages") ++ b!"/Kids" ++ kidsArray [] (pages.map Int.toNat) b!" " ++ pagesEnd pages.length := by
  rw [← kids_text hp hne]
  simp [wrapped, pagesText, pagesEnd]

theorem kidsArray_slash (nums : List Nat) : (47 : UInt8) ∉ kidsArray [] nums b!" " := by
  intro h
  simp only [kidsArray, List.mem_append, List.append_nil] at h
  rcases h with ((h | h) | h) | h
  · simp at h
  · rcases refsText_chars nums 47 h with h | h | h <;> exact absurd h (by decide)
  · simp at h
  · simp at h

theorem pages_recognised (n : Int) {pages : List Int} (hp : ∀ n ∈ pages, 0 < n) (hne : pages ≠ []) :
    NodeText (wrapped n (pagesText pages)) (pages.map Int.toNat) ∧ SaysPages (wrapped n (pagesText pages)) ∧
      CompactKids (wrapped n (pagesText pages)) (pages.map Int.toNat) := by
  have hpre : ¬ b!"/Kids" <:+: itoa n ++ b!" 0 obj\n<</Type/Pages" := by
    rw [← noOcc_iff_infix]
    apply avoid_noOcc _ (by decide)
    exact avoid_append (avoid_head (not_mem_itoa n (by decide) (by decide))) (avoid_clash (by decide))
  have hpost : ¬ b!"/Kids" <:+: pagesEnd pages.length := by
    rw [← noOcc_iff_infix]
    apply avoid_noOcc _ (by decide)
    exact avoid_append (avoid_append (avoid_clash (by decide)) (avoid_head (not_mem_natDec (by decide) _))) (avoid_clash (by decide))
  have hsp : ∀ c ∈ b!" ", White c := by intro c hc; simp at hc; subst hc; simp [White]
  refine ⟨⟨?_, ?_⟩, ?_, ?_⟩
  · have e : wrapped n (pagesText pages) = (itoa n ++ b!" 0 obj\n<<") ++ (b!"/Type" ++ (b!"/" ++ (b!"Pages" ++
        (b!"/Kids" ++ kidsArray [] (pages.map Int.toNat) b!" " ++ pagesEnd pages.length)))) := by
      rw [pages_wrapped n hp hne]; simp
    rw [e]
    refine typed n b!"Pages" _ ?_ ?_
    · have e2 : b!"/" ++ (b!"Pages" ++ (b!"/Kids" ++ kidsArray [] (pages.map Int.toNat) b!" " ++ pagesEnd pages.length)) =
          b!"/Pages/Kids" ++ (kidsArray [] (pages.map Int.toNat) b!" " ++ (b!"/Count " ++ (natDec pages.length ++ b!">>\nendobj"))) := by
        simp [pagesEnd]
      rw [e2]
      exact avoid_append (avoid_clash (by decide)) (avoid_append (avoid_head (kidsArray_slash _)) (avoid_append (avoid_clash (by decide))
        (avoid_append (avoid_head (not_mem_natDec (by decide) _)) (avoid_clash (by decide)))))
    · intro c hc
      simp at hc
      exact .inr (.inr (.inr hc.symm))
  · refine ⟨[], [], b!" ", pagesEnd pages.length, by simp, by simp, hsp, _, hpre, ?_⟩
    rw [pages_wrapped n hp hne]; simp
  · refine .inl ⟨itoa n ++ b!" 0 obj\n<<", b!"/Kids" ++ kidsArray [] (pages.map Int.toNat) b!" " ++ pagesEnd pages.length, ?_⟩
    rw [pages_wrapped n hp hne]; simp
  · exact ⟨_, [], b!" ", pagesEnd pages.length, by simp, hsp, hpre, hpost, pages_wrapped n hp hne⟩

theorem catalog_value (n : Int) {p : Int} (hp : 0 < p) :
    extractDictValue (wrapped n (catalogText p)) b!"/Pages" = natDec p.toNat ∧
      xDictValue (wrapped n (catalogText p)) b!"/Pages" = natDec p.toNat := by
  have e : wrapped n (catalogText p) = (itoa n ++ b!" 0 obj\n<</Type/Catalog") ++ (b!"/Pages" ++ (b!" " ++ (natDec p.toNat ++ b!" 0 R>>\nendobj"))) := by
    rw [wrapped, catalogText, ref_toNat hp]
    simp [refText]
  have hpre : NoOcc b!"/Pages" (itoa n ++ b!" 0 obj\n<</Type/Catalog") := by
    apply avoid_noOcc _ (by decide)
    exact avoid_append (avoid_head (not_mem_itoa n (by decide) (by decide))) (avoid_clash (by decide))
  have hsp : ∀ c ∈ b!" ", White c := by intro c hc; simp at hc; subst hc; simp [White]
  have ht : Token (natDec p.toNat) := by
    have := itoa_token (p.toNat : Int)
    exact this
  have hr : Ends b!" 0 R>>\nendobj" := by
    intro c hc
    simp at hc
    subst hc
    exact .inl (.inl rfl)
  rw [e]
  exact ⟨extract_value (by decide) hpre (by decide) hsp ht hr, xDict_value (by decide) hpre (by decide) hsp ht hr⟩

theorem catalog_value_zero (n : Int) :
    extractDictValue (wrapped n (catalogText 0)) b!"/Pages" = natDec 0 ∧ xDictValue (wrapped n (catalogText 0)) b!"/Pages" = natDec 0 := by
  have e : wrapped n (catalogText 0) = (itoa n ++ b!" 0 obj\n<</Type/Catalog") ++ (b!"/Pages" ++ (b!" " ++ (natDec 0 ++ b!" 0 R>>\nendobj"))) := by
    have : ref 0 = natDec 0 ++ b!" 0 R" := rfl
    rw [wrapped, catalogText, this]
    simp
  have hpre : NoOcc b!"/Pages" (itoa n ++ b!" 0 obj\n<</Type/Catalog") := by
    apply avoid_noOcc _ (by decide)
    exact avoid_append (avoid_head (not_mem_itoa n (by decide) (by decide))) (avoid_clash (by decide))
  have hsp : ∀ c ∈ b!" ", White c := by intro c hc; simp at hc; subst hc; simp [White]
  have hr : Ends b!" 0 R>>\nendobj" := by
    intro c hc
    simp at hc
    subst hc
    exact .inl (.inl rfl)
  rw [e]
  exact ⟨extract_value (by decide) hpre (by decide) hsp (itoa_token 0) hr, xDict_value (by decide) hpre (by decide) hsp (itoa_token 0) hr⟩

theorem delimitable_of {t : Bytes} (h1 : Spec.Absent b!"endobj" t) (h2 : Spec.Absent b!"stream" t) (h3 : t.head? = some 60) :
    Spec.Delimitable t := by
  refine ⟨h1, ?_, .inl h2⟩
  intro b hb
  rw [h3] at hb
  simp at hb
  subst hb
  decide

theorem page_delimitable (ord : List (Bytes × Int) → List (Bytes × Int)) (hord : ∀ l, (ord l).Perm l) (parent contents : Int) (p : Page)
    (hp : PlainPage p) : Spec.Delimitable (pageText ord parent contents p) := by
  obtain ⟨h1, h2⟩ := page_absent ord hord parent contents p hp
  exact delimitable_of h1 h2 (by rw [pageText_eq]; rfl)

theorem catalog_delimitable (p : Int) : Spec.Delimitable (catalogText p) := by
  refine delimitable_of ?_ ?_ rfl
  · rw [absent_iff (by decide)]
    exact avoid_noOcc (avoid_append (avoid_append (avoid_clash (by decide)) (avoid_ref (by decide) (by decide) (by decide) (by decide) p))
      (avoid_clash (by decide))) (by decide)
  · rw [absent_iff (by decide)]
    exact avoid_noOcc (avoid_append (avoid_append (avoid_clash (by decide)) (avoid_ref (by decide) (by decide) (by decide) (by decide) p))
      (avoid_clash (by decide))) (by decide)

theorem avoid_kids {key : Bytes} {c : UInt8} (hd : isDigit c = false) (h1 : c ≠ 45) (h2 : c ≠ 32) (h3 : c ≠ 82) (pages : List Int) :
    Avoid (c :: key) (pages.map fun n => ref n ++ b!" ").flatten := by
  induction pages with
  | nil => exact avoid_nil _
  | cons n ns ih =>
    rw [List.map_cons, List.flatten_cons]
    exact avoid_append (avoid_append (avoid_ref hd h1 h2 h3 n) (avoid_head (by simp; exact h2))) ih

theorem pages_delimitable (pages : List Int) : Spec.Delimitable (pagesText pages) := by
  refine delimitable_of ?_ ?_ rfl
  · rw [absent_iff (by decide)]
    exact avoid_noOcc (avoid_append (avoid_append (avoid_append (avoid_append (avoid_clash (by decide))
      (avoid_kids (by decide) (by decide) (by decide) (by decide) pages)) (avoid_clash (by decide)))
      (avoid_head (not_mem_natDec (by decide) _))) (avoid_clash (by decide))) (by decide)
  · rw [absent_iff (by decide)]
    exact avoid_noOcc (avoid_append (avoid_append (avoid_append (avoid_append (avoid_clash (by decide))
      (avoid_kids (by decide) (by decide) (by decide) (by decide) pages)) (avoid_clash (by decide)))
      (avoid_head (not_mem_natDec (by decide) _))) (avoid_clash (by decide))) (by decide)

/-- The references the writer keeps. -/
def Refs (w : Writer) : Prop := RefOrNil w.rootRef ∧ RefOrNil w.infoRef ∧ RefOrNil w.encryptRef

theorem refs_bstep (env : Env) (b : Builder) (op : BOp) (h : Refs b.w) : Refs (bstep env b op).w := by
  cases op with
  | addPage x y => exact h
  | font i name =>
    rw [bstep]
    split
    · exact h
    · unfold addStandardFont
      split <;> exact h
  | image i name num => rw [bstep, onDraft]; split <;> exact h
  | embedFont i num => rw [bstep, onDraft]; split <;> exact h
  | draw i text => rw [bstep, onDraft]; split <;> exact h
  | writer op => exact refs_step env.wenv b.w op h
  | finalize i =>
    rw [bstep]
    split
    · exact h
    · unfold finalizePage reservePages
      simp only
      split <;> exact h
  | bytes =>
    exact refs_step env.wenv (finish b).w .write ⟨.inr ⟨_, rfl⟩, h.2.1, h.2.2⟩

theorem refs_brun (env : Env) (ops : List BOp) : Refs (brun env ops).w := by
  unfold brun
  have : ∀ b : Builder, Refs b.w → Refs (ops.foldl (bstep env) b).w := by
    induction ops with
    | nil => exact fun _ h => h
    | cons op ops ih => exact fun b h => ih _ (refs_bstep env b op h)
  exact this _ ⟨.inl rfl, .inl rfl, .inl rfl⟩

theorem inOrder_mem {α β : Type} {R : α → β → Prop} {as : List α} {bs : List β} (h : InOrder R as bs) {a : α} (ha : a ∈ as) :
    ∃ b ∈ bs, R a b := by
  induction h with
  | nil => simp at ha
  | @cons x y xs ys hr _ ih =>
    rcases List.mem_cons.1 ha with rfl | ha
    · exact ⟨y, by simp, hr⟩
    · obtain ⟨b, hb, hR⟩ := ih ha
      exact ⟨b, by simp [hb], hR⟩

theorem inOrder_length {α β : Type} {R : α → β → Prop} {as : List α} {bs : List β} (h : InOrder R as bs) : as.length = bs.length := by
  induction h with
  | nil => rfl
  | cons _ _ ih => simp [ih]

/-- The pages of a document that was built are found again. -/
theorem open_built (env : Env) (hord : ∀ l, (env.ord l).Perm l) (b : Builder) (log : List Page) (h : BInv env b log) (hrefs : Refs b.w)
    (hne : log ≠ []) (hplain : ∀ p ∈ log, PlainPage p) (hfit : Spec.FileFits env.wenv (finish b).w)
    (ienv : Incremental.Env) (henc : ienv.handleEncryption (bytes env b).1 = some none) :
    ∃ pdf F, openPdf ienv (bytes env b).1 = .ok pdf ∧
      (∀ fuel, F ≤ fuel → allPages (pdfGet ienv pdf) pdf.root fuel = some (some b.pages) ∧
        xAllPages (pdfGet ienv pdf) pdf.root fuel = some (some b.pages)) ∧
      InOrder (fun n p => ∃ contents, n = contents + 1 ∧ pdfGet ienv pdf n = some (wrapped n (pageText env.ord b.pagesNum contents p)))
        b.pages log := by
  obtain ⟨hf, hroot, hnext, hcat, hpages, hlt⟩ := binv_finish h
  have hlen := inOrder_length h.stored
  have hpne : b.pages ≠ [] := by
    intro e
    rw [e] at hlen
    exact hne (List.length_eq_zero_iff.1 hlen.symm)
  have hpn : 0 < b.pagesNum := by
    rcases h.num with h1 | h1
    · exact absurd h1.2 hpne
    · exact h1.1
  have hpos : ∀ n ∈ b.pages, 0 < n := fun n hn => by have := (h.range n hn).1; omega
  obtain ⟨pdf, h1, _, h3, _, h5⟩ := open_writer env.wenv (finish b).w hf.inv ⟨.inr ⟨_, hroot⟩, hrefs.2.1, hrefs.2.2⟩ hfit ienv henc
  have hmax := hfit.next
  rw [hnext] at hmax
  have hget : ∀ m t, 1 ≤ m → HoldsText (finish b).w m t → Spec.Delimitable t → pdfGet ienv pdf m = some (wrapped m t) := by
    intro m t hm ht hd
    obtain ⟨c, hc, hgo⟩ := h5 m _ hm ht
    unfold Spec.BodyOf at hc
    simp only [Option.getD_some] at hc
    subst hc
    unfold pdfGet
    rw [hgo hd]
    rfl
  have hcatalog := hget _ _ (by omega) hcat (catalog_delimitable _)
  have htree := hget _ _ (by omega) hpages (pages_delimitable _)
  have hpage : ∀ n ∈ b.pages, ∃ p ∈ log, ∃ contents, n = contents + 1 ∧
      pdfGet ienv pdf n = some (wrapped n (pageText env.ord b.pagesNum contents p)) := by
    intro n hn
    obtain ⟨p, hp, c, hc, ht, _⟩ := inOrder_mem hf.stored (show n ∈ (finish b).pages from hn)
    exact ⟨p, hp, c, hc, hget n _ (by have := hpos n hn; omega) ht (page_delimitable env.ord hord _ _ p (hplain p hp))⟩
  have hrn : pdf.root = ref b.w.nextObjNum := by
    have := h3 b.w.nextObjNum.toNat (by rw [hroot]; congr 1; omega)
    rw [this]; congr 1; omega
  let t : PTree := .node b.pagesNum.toNat (b.pages.map fun n => .page n.toNat)
  have hnum : (b.pages.map fun n => PTree.page n.toNat).map PTree.num = b.pages.map Int.toNat := by
    rw [List.map_map]; rfl
  have htp : t.pages.map Int.ofNat = b.pages := by
    show ((PTree.node _ _).pages).map Int.ofNat = _
    rw [pages_node, List.flatMap_map]
    have : (b.pages.flatMap fun n => (PTree.page n.toNat).pages) = b.pages.map Int.toNat := by
      rw [List.map_eq_flatMap]
      congr 1
      funext n
      rw [PTree.pages]
    rw [this, List.map_map]
    conv => rhs; rw [← List.map_id b.pages]
    apply List.map_congr_left
    intro n hn
    have := hpos n hn
    show ((n.toNat : Nat) : Int) = n
    omega
  have hle : ∀ n ∈ b.pages, n.toNat ≤ 9223372036854775807 := fun n hn => by have := (h.range n hn).2; omega
  obtain ⟨hn1, hn2, hn3⟩ := pages_recognised b.pagesNum hpos hpne
  have hto : ((b.pagesNum.toNat : Nat) : Int) = b.pagesNum := by omega
  have hkid : ∀ n ∈ b.pages, Holds (pdfGet ienv pdf) (.page n.toNat) ∧ HoldsCompact (pdfGet ienv pdf) (.page n.toNat) := by
    intro n hn
    obtain ⟨p, hp, c, _, hg⟩ := hpage n hn
    obtain ⟨hr1, hr2⟩ := page_recognised env.ord hord n b.pagesNum c p (hplain p hp)
    have : ((n.toNat : Nat) : Int) = n := by have := hpos n hn; omega
    exact ⟨.page _ _ (hle n hn) (by rw [this]; exact hg) hr1, .page _ _ (hle n hn) (by rw [this]; exact hg) hr2⟩
  have hH : Holds (pdfGet ienv pdf) t := by
    refine .node _ _ _ (by omega) (by rw [hto]; exact htree) (by rw [hnum]; exact hn1) ?_
    intro k hk
    obtain ⟨n, hn, rfl⟩ := List.mem_map.1 hk
    exact (hkid n hn).1
  have hC : HoldsCompact (pdfGet ienv pdf) t := by
    refine .node _ _ _ (by omega) (by rw [hto]; exact htree) hn2 (by simpa using hpne) (by rw [hnum]; exact hn3) ?_
    intro k hk
    obtain ⟨n, hn, rfl⟩ := List.mem_map.1 hk
    exact (hkid n hn).2
  obtain ⟨F1, hF1⟩ := pageNums_tree hH
  obtain ⟨F2, hF2⟩ := xPageNums_tree hC
  rw [htp] at hF1 hF2
  have hto' : ((t.num : Nat) : Int) = b.pagesNum := hto
  rw [hto'] at hF1 hF2
  obtain ⟨hv1, hv2⟩ := catalog_value b.w.nextObjNum hpn
  refine ⟨pdf, max F1 F2, h1, ?_, ?_⟩
  · intro fuel hfuel
    constructor
    · unfold allPages
      rw [hrn, parse_ref (by omega) (by omega)]
      simp only
      rw [hcatalog]
      simp only
      rw [hv1, parse_word hpn (by omega)]
      exact hF1 fuel (by omega)
    · unfold xAllPages
      rw [hrn, parse_ref (by omega) (by omega), Option.bind_some, hcatalog]
      simp only
      rw [hv2, parse_word hpn (by omega)]
      exact hF2 fuel (by omega)
  · have : ∀ (pages : List Int) (log : List Page), InOrder (StoredPage env (finish b).w b.pagesNum) pages log → (∀ n ∈ pages, 0 < n) →
        (∀ p ∈ log, PlainPage p) →
        InOrder (fun n p => ∃ contents, n = contents + 1 ∧ pdfGet ienv pdf n = some (wrapped n (pageText env.ord b.pagesNum contents p))) pages log := by
      intro pages log hs hp hl
      induction hs with
      | nil => exact .nil
      | @cons n p ns ps hr _ ih =>
        refine .cons ?_ (ih (fun n hn => hp n (by simp [hn])) fun q hq => hl q (by simp [hq]))
        obtain ⟨c, hc, ht, _⟩ := hr
        exact ⟨c, hc, hget n _ (by have := hp n (by simp); omega) ht (page_delimitable env.ord hord _ _ p (hl p (by simp)))⟩
    exact this b.pages log hf.stored hpos hplain

end Pdfer.Builder
