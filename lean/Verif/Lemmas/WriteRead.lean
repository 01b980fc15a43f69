import Verif.Lemmas.TVRead
import Verif.Lemmas.Writer
import Verif.Spec.Printed

set_option linter.unusedSimpArgs false

/-!
# Reading written items
-/

namespace Verif
open Spec

@[simp] theorem pairsOf_nil : pairsOf [] = [] := rfl
@[simp] theorem pairsOf_append (a b : List Item) : pairsOf (a ++ b) = pairsOf a ++ pairsOf b := by
  simp [pairsOf]
@[simp] theorem pairsOf_cons (i : Item) (l : List Item) : pairsOf (i :: l) = i.pairs ++ pairsOf l := by
  simp [pairsOf]

/-- An item of the shape the writer prints: a well-formed tag, or an empty or comment line. -/
def ShapedItem : Item → Prop
  | .field t _ => GoodTag t
  | .text t _ => GoodTag t
  | .line s => s = [] ∨ ∃ r, s = '#' :: r

theorem dropCR_cons_ne {c : Char} (h : c ≠ '\r') (r : Str) : ∃ r', dropCR (c :: r) = c :: r' := by
  unfold dropCR
  split
  · rename_i t ht
    have : (c :: r) = t.reverse ++ ['\r'] := by
      have := congrArg List.reverse ht; simpa using this
    cases hr : t.reverse with
    | nil => rw [hr] at this; simp at this; exact absurd this.1 h
    | cons a b =>
      rw [hr] at this
      simp at this
      exact ⟨b, by rw [this.1]⟩
  · exact ⟨r, rfl⟩

theorem emit_item {i : Item} (hs : ShapedItem i) (hc : CleanItem i) (r : TVReader) (hm : r.midtext = false)
    (hct : r.currentTag = []) (hcv : r.currentValue = []) :
    readLines r ((rawLines i.emit).map dropCR) = .ok { r with tvList := r.tvList ++ i.pairs } := by
  cases i with
  | field t v =>
    obtain ⟨h1, h2, h3⟩ := hc
    have : Item.emit (.field t v) = fieldText ⟨t, v⟩ := by simp [Item.emit, fieldText, h1]
    rw [this, readLines_fieldText r ⟨t, v⟩ hm hct hcv hs]
    · rfl
    · simp [GoodValue, h1, h2, h3]
  | text t v =>
    have : Item.emit (.text t v) = fieldText ⟨t, v⟩ := by
      have : (contains g!"\n" v = true) = ('\n' ∈ v) := by rw [contains_single]
      simp only [Item.emit, fieldText, textify, this]
    rw [this, readLines_fieldText r ⟨t, v⟩ hm hct hcv hs hc]
    rfl
  | line s =>
    have : rawLines (Item.emit (.line s)) = [s] := by
      simp only [Item.emit]
      have e : s ++ g!"\n" = s ++ '\n' :: [] := rfl
      rw [e, rawLines_append, rawLines_nil, splitChar_of_not_mem hc]; rfl
    rw [this]
    simp only [List.map_cons, List.map_nil, readLines]
    rw [readLine_skip r _ hm]
    · simp [Item.pairs]
    · rcases hs with rfl | ⟨t, rfl⟩
      · left; rfl
      · right
        obtain ⟨t', ht'⟩ := dropCR_cons_ne (c := '#') (by decide) t
        rw [ht']; simp [isComment, isSpace_newline_not_hash]

theorem emit_item_ends (i : Item) : ∃ x, i.emit = x ++ g!"\n" := by
  cases i <;> exact ⟨_, rfl⟩

theorem readLines_items (is : List Item) (h : ∀ i ∈ is, ShapedItem i ∧ CleanItem i)
    (r : TVReader) (hm : r.midtext = false) (hct : r.currentTag = []) (hcv : r.currentValue = []) :
    readLines r ((rawLines (emit is)).map dropCR) = .ok { r with tvList := r.tvList ++ pairsOf is } := by
  induction is generalizing r with
  | nil => simp [emit, rawLines_nil, readLines]
  | cons i is ih =>
    have e : emit (i :: is) = i.emit ++ emit is := by simp [emit]
    obtain ⟨x, hx⟩ := emit_item_ends i
    rw [e, hx, rawLines_complete, ← hx, List.map_append, readLines_append,
      emit_item (h i (by simp)).1 (h i (by simp)).2 r hm hct hcv]
    simp only [Res.bind_ok]
    rw [ih (fun q hq => h q (by simp [hq])) { r with tvList := r.tvList ++ i.pairs } hm hct hcv]
    simp

/-- The reader returns one pair per written field. -/
theorem read_items (is : List Item) (h : ∀ i ∈ is, ShapedItem i ∧ CleanItem i) (fit : LinesFit (emit is)) :
    readTagValues (emit is) = .ok (pairsOf is) := by
  unfold readTagValues
  rw [scanLines_ok fit]
  simp only [Res.bind_ok, readTagValueLines]
  rw [readLines_items is h {} rfl rfl rfl]
  simp [TVReader.finalize]

/-! ## Every item the writer prints is well shaped -/

def goodTagB (t : Str) : Bool :=
  !t.contains ':' && !t.contains '\n' && (match t with | '#' :: _ => false | _ => true) && (trimSpace t == t)

theorem goodTag_of {t : Str} (h : goodTagB t = true) : GoodTag t := by
  simp only [goodTagB, Bool.and_eq_true, Bool.not_eq_true', beq_iff_eq] at h
  obtain ⟨⟨⟨h1, h2⟩, h3⟩, h4⟩ := h
  refine ⟨by simpa using h1, by simpa using h2, ?_, h4⟩
  rintro r rfl; simp at h3

/-- All items of a list are well shaped. -/
def Shaped (is : List Item) : Prop := ∀ i ∈ is, ShapedItem i

theorem shaped_nil : Shaped [] := by simp [Shaped]
theorem shaped_append {a b : List Item} : Shaped (a ++ b) ↔ Shaped a ∧ Shaped b := by
  simp only [Shaped, List.mem_append]
  exact ⟨fun h => ⟨fun i hi => h i (.inl hi), fun i hi => h i (.inr hi)⟩, fun h i hi => hi.elim (h.1 i) (h.2 i)⟩
theorem shaped_cons {a : Item} {b : List Item} : Shaped (a :: b) ↔ ShapedItem a ∧ Shaped b := by
  simp [Shaped]
theorem shaped_opt {t v : Str} (h : goodTagB t = true) : Shaped (opt t v) := by
  unfold opt; split <;> simp [Shaped, ShapedItem, goodTag_of h]
theorem shaped_optText {t v : Str} (h : goodTagB t = true) : Shaped (optText t v) := by
  unfold optText; split <;> simp [Shaped, ShapedItem, goodTag_of h]
theorem shaped_optId {t v : Str} (h : goodTagB t = true) : Shaped (optId t v) := by
  unfold optId; split <;> simp [Shaped, ShapedItem, goodTag_of h]
theorem shaped_each {t : Str} {l : List Str} (h : goodTagB t = true) : Shaped (each t l) := by
  simp [each, Shaped, ShapedItem, goodTag_of h]
theorem shaped_eachText {t : Str} {l : List Str} (h : goodTagB t = true) : Shaped (eachText t l) := by
  simp [eachText, Shaped, ShapedItem, goodTag_of h]
theorem shaped_eachChecksum {t : Str} {l : List Checksum} (h : goodTagB t = true) : Shaped (eachChecksum t l) := by
  simp [eachChecksum, Shaped, ShapedItem, goodTag_of h]
theorem shaped_flatMap {α : Type} {l : List α} {g : α → List Item} (h : ∀ a ∈ l, Shaped (g a)) :
    Shaped (l.flatMap g) := by
  intro i hi
  obtain ⟨a, ha, hi⟩ := List.mem_flatMap.1 hi
  exact h a ha i hi
theorem shaped_map {α : Type} {l : List α} {t : Str} {g : α → Str} (h : goodTagB t = true) :
    Shaped (l.map fun a => .field t (g a)) := by
  simp [Shaped, ShapedItem, goodTag_of h]
theorem shaped_field {t v : Str} (h : goodTagB t = true) : Shaped [.field t v] := by
  simp [Shaped, ShapedItem, goodTag_of h]
theorem shaped_ite {c : Prop} [Decidable c] {a b : List Item} (h1 : Shaped a) (h2 : Shaped b) :
    Shaped (if c then a else b) := by split <;> assumption
theorem shaped_blank : Shaped [.line []] := by simp [Shaped, ShapedItem]
theorem shaped_heading {α : Type} (l : List α) (t : Str) : Shaped (heading l ('#' :: t)) := by
  unfold heading; split <;> simp [Shaped, ShapedItem]

/-- Discharges `Shaped` goals. -/
macro "shaped" : tactic => `(tactic|
  repeat' (first
    | with_reducible refine shaped_append.2 ⟨?_, ?_⟩
    | with_reducible refine shaped_ite ?_ ?_
    | with_reducible exact shaped_nil | with_reducible exact shaped_blank | with_reducible exact shaped_heading _ _
    | with_reducible assumption
    | (with_reducible refine shaped_opt ?_); decide
    | (with_reducible refine shaped_optText ?_); decide
    | (with_reducible refine shaped_optId ?_); decide
    | (with_reducible refine shaped_each ?_); decide
    | (with_reducible refine shaped_eachText ?_); decide
    | (with_reducible refine shaped_eachChecksum ?_); decide
    | (with_reducible refine shaped_field ?_); decide
    | (with_reducible refine shaped_map ?_); decide))

theorem shaped_creationInfo (c : CreationInfo) : Shaped (renderCreationInfo c) := by
  unfold renderCreationInfo; shaped

theorem shaped_range (r : SnippetRange) : Shaped (renderRange r) := by
  unfold renderRange; shaped

theorem shaped_snippet (v : Version) (s : Snippet) : Shaped (renderSnippet v s) := by
  unfold renderSnippet
  have := shaped_flatMap (l := s.ranges) fun r _ => shaped_range r
  shaped

theorem shaped_artifact (a : ArtifactOfProject) : Shaped (renderArtifact a) := by
  unfold renderArtifact; shaped

theorem shaped_file (v : Version) (so : Sorter) (f : FileV) : Shaped (renderFile v so f) := by
  unfold renderFile renderFileFields
  have := shaped_flatMap (l := f.artifactOfProjects) fun r _ => shaped_artifact r
  have := shaped_flatMap (l := snippetsInOrder so f) fun r _ => shaped_snippet v r
  shaped

theorem shaped_externalRef (r : PackageExternalRef) : Shaped (renderExternalRef r) := by
  unfold renderExternalRef; shaped

theorem shaped_package (v : Version) (so : Sorter) (p : PackageV) : Shaped (renderPackageGroup v so p) := by
  unfold renderPackageGroup renderPackage renderPackageFields
  have h1 := shaped_flatMap (l := p.externalRefs) fun r _ => shaped_externalRef r
  have h2 := shaped_flatMap (l := (sortPackageFiles so p).files) fun r _ => shaped_file v so r
  have h3 : Shaped (renderSupplier p.supplier) := by unfold renderSupplier; split <;> shaped
  have h4 : Shaped (renderOriginator p.originator) := by unfold renderOriginator; split <;> shaped
  have h5 : Shaped (renderFilesAnalyzed p.filesAnalyzed p.filesAnalyzedTagPresent) := by
    unfold renderFilesAnalyzed; shaped
  have h6 : Shaped (renderVerificationCode p.filesAnalyzed p.verificationCode) := by
    unfold renderVerificationCode; split <;> shaped
  have h7 : Shaped [.line (g!"##### Package: " ++ p.name), .line []] := by simp [Shaped, ShapedItem]
  shaped

theorem shaped_otherLicense (l : OtherLicense) : Shaped (renderOtherLicense l) := by
  unfold renderOtherLicense; shaped
theorem shaped_relationship (l : Relationship) : Shaped (renderRelationship l) := by
  unfold renderRelationship; shaped
theorem shaped_annotation (l : Annotation) : Shaped (renderAnnotation l) := by
  unfold renderAnnotation; shaped
theorem shaped_review (l : Review) : Shaped (renderReview l) := by
  unfold renderReview; shaped

theorem shaped_body (v : Version) (so : Sorter) (d : Doc) (ci : CreationInfo) : Shaped (renderBody v so d ci) := by
  unfold renderBody renderHeader renderTail renderRelationships
  have h0 := shaped_creationInfo ci
  have h1 := shaped_flatMap (l := so.run (·.documentRefID) d.externalDocumentRefs) (g := renderExternalDocRef)
    fun r _ => by unfold renderExternalDocRef; shaped
  have h2 := shaped_flatMap (l := so.run (·.spdxId) d.files) fun r _ => shaped_file v so r
  have h3 := shaped_flatMap (l := so.run (·.spdxId) d.packages) fun r _ => shaped_package v so r
  have h4 := shaped_flatMap (l := d.otherLicenses) fun r _ => shaped_otherLicense r
  have h5 := shaped_flatMap (l := d.relationships) fun r _ => shaped_relationship r
  have h6 := shaped_flatMap (l := d.annotations) (g := fun a => renderAnnotation a ++ [.line []])
    fun r _ => shaped_append.2 ⟨shaped_annotation r, shaped_blank⟩
  have h7 := shaped_flatMap (l := d.reviews) fun r _ => shaped_review r
  shaped

end Verif
