import Verif.Props.C40_RdfLicense
import Verif.Lemmas.ExprGrammar
import Verif.Spec.LicenseMeaning

/-!
# C41: what the text of a license tree means
-/

namespace Verif
open RdfM Spec

/-- C41 as first stated is false: "one of A and B, and C" and "A, or B and C" have the same text, because the
members of a set are joined without parentheses. -/
theorem C41_nesting_false :
    ¬ ∀ l l' : Lic, l.text = l'.text → ∀ v, l.Holds v ↔ l'.Holds v := by
  intro h
  have h := h (.all [.any [.named g!"A", .named g!"B"], .named g!"C"]) (.any [.named g!"A", .all [.named g!"B", .named g!"C"]])
    (by decide) (fun x => x = g!"A")
  simp only [Lic.Holds, Lic.AllHold, Lic.AnyHolds] at h
  have := h.2 (.inl trivial)
  revert this; decide

/-- Both trees are read from graphs: the first one. -/
def bothGraph (first : Bool) : Graph := exampleGraph ((if first then [
    classTo g!"s" g!"ConjunctiveLicenseSet", linkTo g!"s" (spdxTerm g!"member") g!"d",
    linkTo g!"s" (spdxTerm g!"member") g!"http://spdx.org/licenses/ISC",
    classTo g!"d" g!"DisjunctiveLicenseSet", linkTo g!"d" (spdxTerm g!"member") g!"http://spdx.org/licenses/MIT",
    linkTo g!"d" (spdxTerm g!"member") g!"http://spdx.org/licenses/Zlib"]
  else [
    classTo g!"s" g!"DisjunctiveLicenseSet", linkTo g!"s" (spdxTerm g!"member") g!"http://spdx.org/licenses/MIT",
    linkTo g!"s" (spdxTerm g!"member") g!"d",
    classTo g!"d" g!"ConjunctiveLicenseSet", linkTo g!"d" (spdxTerm g!"member") g!"http://spdx.org/licenses/Zlib",
    linkTo g!"d" (spdxTerm g!"member") g!"http://spdx.org/licenses/ISC"])) []

example : (licenseText (bothGraph true) (iriNode g!"s") {}).value = .ok g!"MIT OR Zlib AND ISC" ∧
    (licenseText (bothGraph false) (iriNode g!"s") {}).value = .ok g!"MIT OR Zlib AND ISC" := by decide +kernel

/-- A license as such, in its "or later" form and with an exception. -/
def operatorGraph : Graph := exampleGraph [
  classTo g!"l" g!"SimpleLicensingInfo", valueTo g!"l" (spdxTerm g!"licenseId") g!"GPL-2.0",
  classTo g!"o" g!"OrLaterOperator", linkTo g!"o" (spdxTerm g!"member") g!"l",
  classTo g!"w" g!"WithExceptionOperator", linkTo g!"w" (spdxTerm g!"member") g!"l",
  linkTo g!"w" (spdxTerm g!"licenseException") g!"e",
  classTo g!"e" g!"LicenseException", valueTo g!"e" (spdxTerm g!"licenseExceptionId") g!"Bison-exception-2.2"] []

/-- A license, "this license or a later version" and "this license with an exception" are read as the same text: the
operators are lost. -/
theorem C41_operators_false :
    (licenseText operatorGraph (iriNode g!"l") {}).value = .ok g!"GPL-2.0" ∧
    (licenseText operatorGraph (iriNode g!"o") {}).value = .ok g!"GPL-2.0" ∧
    (licenseText operatorGraph (iriNode g!"w") {}).value = .ok g!"GPL-2.0" := by decide +kernel

/-! ## Trees that need no parentheses -/

theorem reads_and_and {s t : Str} {e f : Expr} (h : Reads .and s e) {lv : Level} (h' : Reads lv t f) (hl : lv = .and) :
    ∃ k, Reads .and (s ++ g!" AND " ++ t) k ∧ ∀ v, k.Holds v ↔ e.Holds v ∧ f.Holds v := by
  induction h' with
  | word => cases hl
  | exception => cases hl
  | paren => cases hl
  | and1 ha _ => exact ⟨_, .and h ha, fun _ => Iff.rfl⟩
  | @and t1 t2 e1 e2 _ h2 ih _ =>
    obtain ⟨k, hk, hv⟩ := ih rfl
    refine ⟨.and k e2, ?_, fun v => ?_⟩
    · have := Reads.and hk h2
      simpa only [List.append_assoc] using this
    · simp only [Expr.Holds, hv, and_assoc]
  | or1 => cases hl
  | or => cases hl

theorem reads_or_or {s t : Str} {e f : Expr} (h : Reads .or s e) {lv : Level} (h' : Reads lv t f) (hl : lv = .or) :
    ∃ k, Reads .or (s ++ g!" OR " ++ t) k ∧ ∀ v, k.Holds v ↔ e.Holds v ∨ f.Holds v := by
  induction h' with
  | word => cases hl
  | exception => cases hl
  | paren => cases hl
  | and1 => cases hl
  | and => cases hl
  | or1 ha _ => exact ⟨_, .or h ha, fun _ => Iff.rfl⟩
  | @or t1 t2 e1 e2 _ h2 ih _ =>
    obtain ⟨k, hk, hv⟩ := ih rfl
    refine ⟨.or k e2, ?_, fun v => ?_⟩
    · have := Reads.or hk h2
      simpa only [List.append_assoc] using this
    · simp only [Expr.Holds, hv, or_assoc]

mutual
theorem conjunct_reads : ∀ l : Lic, l.Conjunct → ∃ e, Reads .and l.text e ∧ ∀ v, e.Holds v ↔ l.Holds v
  | .named x, h => ⟨.lic x, .and1 h, fun _ => Iff.rfl⟩
  | .all ms, h => by
    obtain ⟨e, he, hv⟩ := conjuncts_read ms h.1 h.2
    exact ⟨e, he, hv⟩
  | .any [m], h => by
    obtain ⟨e, he, hv⟩ := conjunct_reads m h.2.1
    refine ⟨e, by simpa only [Lic.text, Lic.texts, join] using he, fun v => ?_⟩
    simp only [Lic.Holds, Lic.AnyHolds, or_false, hv]
  | .any [], h => by simp [Lic.Conjunct] at h
  | .any (_ :: _ :: _), h => by simp [Lic.Conjunct] at h
theorem conjuncts_read : ∀ ms : List Lic, ms ≠ [] → Lic.Conjuncts ms →
    ∃ e, Reads .and (join g!" AND " (Lic.texts ms)) e ∧ ∀ v, e.Holds v ↔ Lic.AllHold v ms
  | [], h, _ => absurd rfl h
  | [m], _, h => by
    obtain ⟨e, he, hv⟩ := conjunct_reads m h.1
    exact ⟨e, he, fun v => by simp only [Lic.AllHold, and_true, hv]⟩
  | m :: m' :: ms, _, h => by
    obtain ⟨e, he, hv⟩ := conjunct_reads m h.1
    obtain ⟨f, hf, hw⟩ := conjuncts_read (m' :: ms) (by simp) h.2
    obtain ⟨k, hk, hu⟩ := reads_and_and he hf rfl
    exact ⟨k, hk, fun v => by rw [hu, hv, hw]; rfl⟩
end

mutual
theorem orderly_reads : ∀ l : Lic, l.Orderly → ∃ e, Reads .or l.text e ∧ ∀ v, e.Holds v ↔ l.Holds v
  | .named x, h => ⟨.lic x, .or1 (.and1 h), fun _ => Iff.rfl⟩
  | .all ms, h => by
    obtain ⟨e, he, hv⟩ := conjuncts_read ms h.1 h.2
    exact ⟨e, .or1 he, hv⟩
  | .any ms, h => orderlies_read ms h.1 h.2
theorem orderlies_read : ∀ ms : List Lic, ms ≠ [] → Lic.AllOrderly ms →
    ∃ e, Reads .or (join g!" OR " (Lic.texts ms)) e ∧ ∀ v, e.Holds v ↔ Lic.AnyHolds v ms
  | [], h, _ => absurd rfl h
  | [m], _, h => by
    obtain ⟨e, he, hv⟩ := orderly_reads m h.1
    exact ⟨e, he, fun v => by simp only [Lic.AnyHolds, or_false, hv]⟩
  | m :: m' :: ms, _, h => by
    obtain ⟨e, he, hv⟩ := orderly_reads m h.1
    obtain ⟨f, hf, hw⟩ := orderlies_read (m' :: ms) (by simp) h.2
    obtain ⟨k, hk, hu⟩ := reads_or_or he hf rfl
    exact ⟨k, hk, fun v => by rw [hu, hv, hw]; rfl⟩
end

/-- C41 (as it holds): the text of a license tree is a license expression with the tree's meaning and no other,
unless a choice between several licenses stands within a set of which all members count, a set is empty, or a
license is called by something that is no license name. -/
theorem C41_meaning (l : Lic) (h : l.Orderly) :
    ∃ e, Reads .or l.text e ∧ (∀ v, e.Holds v ↔ l.Holds v) ∧ ∀ e', Reads .or l.text e' → e' = e := by
  obtain ⟨e, he, hv⟩ := orderly_reads l h
  exact ⟨e, he, hv, fun e' he' => he'.unique he⟩

/-- C41 (as it holds): such trees of different meaning have different texts. -/
theorem C41_distinct (l l' : Lic) (h : l.Orderly) (h' : l'.Orderly) (v : Str → Prop) (hv : ¬ (l.Holds v ↔ l'.Holds v)) :
    l.text ≠ l'.text := by
  intro e
  obtain ⟨a, ha, hva, _⟩ := C41_meaning l h
  obtain ⟨b, hb, hvb, _⟩ := C41_meaning l' h'
  rw [e] at ha
  have := ha.unique hb
  exact hv (by rw [← hva, ← hvb, this])

/-- C41: what is put into the document for a described license has the meaning of the description. -/
theorem C41_graph (g : Graph) (node : RNode) (s s' : RState) (x : Str) (h : licenseText g node s = .ok (x, s')) :
    ∃ l, Describes g s.grey node l ∧ x = l.text ∧
      (l.Orderly → ∃ e, Reads .or x e ∧ (∀ v, e.Holds v ↔ l.Holds v) ∧ ∀ e', Reads .or x e' → e' = e) := by
  rcases C40_license g node s with ⟨l, s1, e, hd, _⟩ | ⟨e, _⟩
  · rw [h] at e
    injection e with e
    injection e with e _
    exact ⟨l, hd, e, fun ho => by rw [e]; exact C41_meaning l ho⟩
  · rw [h] at e; simp at e

instance (w : Str) : Decidable (IsLicense w) := by unfold IsLicense IsOperator; infer_instance

/-- The license list of the code contains the empty text (twice), so any address that ends in a slash or a hash is
read as a license without a name instead of being rejected. -/
theorem C41_empty_name_false :
    (licenseText (exampleGraph [] []) (iriNode g!"http://ex.org/no/license/") {}).value = .ok [] ∧
    (licenseText (exampleGraph [] []) (iriNode g!"http://ex.org/no/license") {}).value = .err := by decide +kernel

/-- The other identifiers of the license list and the special names are license names. -/
theorem C41_list_names (x : Str) (h : x ∈ allStandardLicenseIDs ∨ x = g!"NONE" ∨ x = g!"NOASSERTION") (hx : x ≠ []) :
    Reads .atom x (.lic x) := by
  have : ∀ x ∈ g!"NONE" :: g!"NOASSERTION" :: allStandardLicenseIDs, x ≠ [] → IsLicense x := by decide +kernel
  refine .word (this x ?_ hx)
  rcases h with h | rfl | rfl
  · exact List.mem_cons_of_mem _ (List.mem_cons_of_mem _ h)
  · simp
  · simp

example : (Lic.any [.named g!"MIT", .all [.named g!"Zlib", .all [.named g!"ISC", .any [.named g!"NONE"]]]]).Orderly := by
  have a : ∀ x : Str, IsLicense x → Reads .atom x (.lic x) := fun x h => .word h
  simp only [Lic.Orderly, Lic.AllOrderly, Lic.Conjuncts, Lic.Conjunct]
  exact ⟨by simp, a _ (by decide +kernel), ⟨by simp, a _ (by decide +kernel), ⟨by simp, a _ (by decide +kernel),
    ⟨by simp, a _ (by decide +kernel), trivial⟩, trivial⟩, trivial⟩, trivial⟩

end Verif
