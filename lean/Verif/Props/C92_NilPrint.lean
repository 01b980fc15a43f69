import Verif.Lemmas.NilPrint
import Verif.Props.C66_NilEntries

/-!
# C92: what is left behind when a document with missing entries is written as tag-value

`k` is what the document is written to; `Honest` and `Good` say that it keeps what it is given.
-/

namespace Verif
open Spec

theorem arrived {k : Sink} (hh : k.Honest) (hg : k.Good) (s : k.State) (is : List Item) :
    k.got (writePieces k s (writeCalls is)) = k.got s ++ emit is := by
  rw [writePieces_watched hh _ s (writePieces_watched_good hg _ s), writeCalls_flatten]

/-- **C92.** Following the writer print by print gives the same outcome as `nWriteTagValue` (C66), and the same text if
nothing is missing. -/
theorem C92_same {k : Sink} (hh : k.Honest) (hg : k.Good) (s : k.State) (so : Sorter) (hso : Blind so) (v : Version) (n : NDoc) (maps : SnippetMaps n) :
    (nWriteTagValueTo k s v so n).1 = (do let _ ← nWriteTagValue v so n; .ok ()) ∧
    ∀ t, nWriteTagValue v so n = .ok t → k.got (nWriteTagValueTo k s v so n).2 = k.got s ++ t := by
  cases hc : n.doc.creationInfo with
  | none =>
    simp only [nWriteTagValueTo, nWriteTagValue, hc]
    exact ⟨rfl, by simp⟩
  | some ci =>
    have hd := document_done (v := v) (so := so) (ci := ci) maps
    rw [nWrite_eq hso v maps hc]
    simp only [nWriteTagValueTo, hc]
    cases hw : n.whole with
    | none =>
      have hl := doc_lacks.1 hw
      have : (printWhole v so n ci).done = false := by
        rw [← Bool.not_eq_true, hd]
        exact fun h => h hl
      rw [this]
      exact ⟨rfl, by simp [deref]⟩
    | some d =>
      have hl : ¬ Lacks n := fun h => by rw [doc_lacks.2 h] at hw; cases hw
      have hdone := hd.2 hl
      have ht : (printWhole v so n ci).items = renderBody v so d ci := by
        refine (begins_document hso v ci ?_).2 hdone
        have hof : ∀ {α β : Type} {w : α → Option β} {R : α → β → Prop} (hw : ∀ a b, w a = some b → R a b) {l : List (Option α)} {m : List β},
            allSome (l.map fun o => o.bind w) = some m → Filled R l m := by
          intro α β w R hR l
          induction l with
          | nil =>
            intro m h
            obtain rfl : m = [] := List.map_eq_nil_iff.1 (allSome_some.1 h).symm
            exact .nil
          | cons o l ih =>
            intro m h
            have h' := allSome_some.1 h
            cases m with
            | nil => cases h'
            | cons b m =>
              simp only [List.map_cons, List.cons.injEq] at h'
              refine .cons (fun a ha => ?_) (ih (allSome_some.2 h'.2))
              subst ha
              exact hR a b h'.1
        have hfile : ∀ a b, NFile.whole a = some b → FilledFile a b := by
          intro a b h
          simp only [NFile.whole, Option.bind_eq_bind, Option.bind_eq_some_iff, Option.some.injEq] at h
          obtain ⟨as, h1, ss, h2, rfl⟩ := h
          refine ⟨rfl, ?_, ?_⟩
          · rw [allSome_some.1 h1]
            exact filled_map (g := id) (fun _ => rfl) _
          · show Pointwise _ a.snippets ss
            rw [snippets_map h2]
            clear h2
            induction ss with
            | nil => exact .nil
            | cons e m ih => exact .cons ⟨rfl, fun a ha => by cases ha; rfl⟩ ih
        have hpkg : ∀ a b, NPackage.whole a = some b → FilledPackage a b := by
          intro a b h
          simp only [NPackage.whole, Option.bind_eq_bind, Option.bind_eq_some_iff, Option.some.injEq] at h
          obtain ⟨rs, h1, fs, h2, rfl⟩ := h
          refine ⟨rfl, ?_, hof hfile h2⟩
          rw [allSome_some.1 h1]
          exact filled_map (g := id) (fun _ => rfl) _
        have heq : ∀ {α : Type} {l : List (Option α)} {m : List α}, allSome l = some m → Filled Eq l m := by
          intro α l m h
          rw [allSome_some.1 h]
          exact filled_map (g := id) (fun _ => rfl) _
        simp only [NDoc.whole, Option.bind_eq_bind, Option.bind_eq_some_iff, Option.some.injEq] at hw
        obtain ⟨ps, h1, fs, h2, ls, h3, rs, h4, as, h5, vs, h6, rfl⟩ := hw
        exact ⟨rfl, hof hpkg h1, hof hfile h2, heq h3, heq h4, heq h5, heq h6⟩
      rw [hdone, ht]
      refine ⟨rfl, fun t h => ?_⟩
      obtain rfl : emit (renderBody v so d ci) = t := by simpa [deref] using h
      exact arrived hh hg s _

/-- **C92.** Whatever is missing, what arrives begins the text of every document in which the gaps are filled. -/
theorem C92_prefix {k : Sink} (hh : k.Honest) (hg : k.Good) (s : k.State) (so : Sorter) (hso : Blind so) (v : Version) (n : NDoc) (d : Doc) (t : Str)
    (filled : FilledDoc n d) (written : writeTagValue v so d = .ok t) :
    ∃ u, k.got (nWriteTagValueTo k s v so n).2 = k.got s ++ u ∧ u <+: t := by
  have hc : d.creationInfo = n.doc.creationInfo := by
    have := congrArg (fun x : Doc => x.creationInfo) filled.doc
    exact this
  cases hn : n.doc.creationInfo with
  | none =>
    rw [hn] at hc
    simp [writeTagValue, renderDocument, hc] at written
  | some ci =>
    rw [hn] at hc
    obtain rfl : emit (renderBody v so d ci) = t := by simpa [writeTagValue, renderDocument, hc] using written
    simp only [nWriteTagValueTo, hn]
    refine ⟨_, arrived hh hg s _, ?_⟩
    obtain ⟨r, hr⟩ := (begins_document hso v ci filled).1
    exact ⟨emit r, by rw [← hr]; simp [emit]⟩

/-- **C92.** Whatever is before the first gap arrives, but for a blank line at the end of its text. -/
theorem C92_before {k : Sink} (hh : k.Honest) (hg : k.Good) (s : k.State) (so : Sorter) (hso : Blind so) (v : Version) (n : NDoc) (d : Doc) (t : Str)
    (before : PartBefore n d) (written : writeTagValue v so d = .ok t) :
    ∃ u, k.got (nWriteTagValueTo k s v so n).2 = k.got s ++ u ∧ t.dropLast <+: u := by
  have hc : d.creationInfo = n.doc.creationInfo := by
    have := congrArg (fun x : Doc => x.creationInfo) before.doc
    exact this
  cases hn : n.doc.creationInfo with
  | none =>
    rw [hn] at hc
    simp [writeTagValue, renderDocument, hc] at written
  | some ci =>
    rw [hn] at hc
    obtain rfl : emit (renderBody v so d ci) = t := by simpa [writeTagValue, renderDocument, hc] using written
    simp only [nWriteTagValueTo, hn]
    refine ⟨_, arrived hh hg s _, ?_⟩
    obtain ⟨y, hy, r, hr⟩ := part_printed hso v ci before
    have hp : emit y <+: emit (printWhole v so n ci).items := ⟨emit r, by rw [← hr]; simp [emit]⟩
    rcases hy with e | e
    · rw [e]
      exact (List.dropLast_prefix _).trans hp
    · rw [e]
      have : (emit (y ++ [.line []])).dropLast = emit y := by
        have : emit (y ++ [.line []]) = emit y ++ ['\n'] := by simp [emit, Item.emit]
        rw [this, List.dropLast_concat]
      rw [this]
      exact hp

/-- **C92.** The gaps of every document can be filled, and of every document there is a part before the first gap. -/
theorem C92_exist (n : NDoc) : (∃ d, FilledDoc n d) ∧ ∃ d, PartBefore n d := by
  have some_filled : ∀ {α β : Type} {R : α → β → Prop} (z : β) (h : ∀ a, ∃ b, R a b) (l : List (Option α)), ∃ m, Filled R l m := by
    intro α β R z h l
    induction l with
    | nil => exact ⟨[], .nil⟩
    | cons o l ih =>
      obtain ⟨m, hm⟩ := ih
      cases o with
      | none => exact ⟨z :: m, .cons (fun a ha => by cases ha) hm⟩
      | some a =>
        obtain ⟨b, hb⟩ := h a
        exact ⟨b :: m, .cons (fun a' ha => by cases ha; exact hb) hm⟩
  have snips : ∀ l : List (Str × Option Snippet), ∃ m : List (Str × Snippet), Pointwise (fun o b => o.1 = b.1 ∧ ∀ a, o.2 = some a → a = b.2) l m := by
    intro l
    induction l with
    | nil => exact ⟨[], .nil⟩
    | cons e l ih =>
      obtain ⟨m, hm⟩ := ih
      exact ⟨(e.1, e.2.getD {}) :: m, .cons ⟨rfl, fun a ha => by rw [ha]; rfl⟩ hm⟩
  have same : ∀ {α : Type} (a : α), ∃ b, a = b := fun a => ⟨a, rfl⟩
  have file : ∀ f : NFile, ∃ g, FilledFile f g := by
    intro f
    obtain ⟨as, h1⟩ := some_filled {} same f.artifacts
    obtain ⟨ss, h2⟩ := snips f.snippets
    exact ⟨{ f.file with artifactOfProjects := as, snippets := ss }, rfl, h1, h2⟩
  have pkg : ∀ p : NPackage, ∃ q, FilledPackage p q := by
    intro p
    obtain ⟨rs, h1⟩ := some_filled {} same p.externalRefs
    obtain ⟨fs, h2⟩ := some_filled {} file p.files
    exact ⟨{ p.pkg with externalRefs := rs, files := fs }, rfl, h1, h2⟩
  constructor
  · obtain ⟨ps, h1⟩ := some_filled {} pkg n.packages
    obtain ⟨fs, h2⟩ := some_filled {} file n.files
    obtain ⟨ls, h3⟩ := some_filled {} same n.otherLicenses
    obtain ⟨rs, h4⟩ := some_filled {} same n.relationships
    obtain ⟨as, h5⟩ := some_filled {} same n.annotations
    obtain ⟨vs, h6⟩ := some_filled {} same n.reviews
    exact ⟨{ n.doc with packages := ps, files := fs, otherLicenses := ls, relationships := rs, annotations := as, reviews := vs },
      rfl, h1, h2, h3, h4, h5, h6⟩
  · exact ⟨{ n.doc with packages := [], files := [], otherLicenses := [], relationships := [], annotations := [], reviews := [] },
      rfl, .inl rfl, .inl rfl, .inl rfl, .inl rfl, .inl rfl, .inl rfl⟩

/-! ## Samples -/

/-- A relationship between the document and an element. -/
def rel92 (id : Str) : Relationship :=
  { refA := { elementRefID := g!"DOCUMENT" }, refB := { elementRefID := id }, relationship := g!"DESCRIBES" }

/-- A document whose second relationship and whose annotation are missing. -/
def doc92 : NDoc :=
  { doc := { spdxVersion := g!"SPDX-2.3", spdxId := g!"DOCUMENT", name := g!"d", creationInfo := some { created := g!"2020-01-01T00:00:00Z" } }
    packages := [some { pkg := { name := g!"p", spdxId := g!"P" } }]
    relationships := [some (rel92 g!"P"), none, some (rel92 g!"Q")]
    annotations := [none] }

/-- A writer that keeps all it is given. -/
def keeper : Sink := ⟨Str, fun s p => (s ++ p, true), id⟩

theorem keeper_ok : keeper.Honest ∧ keeper.Good := ⟨fun _ p => ⟨p, rfl, List.prefix_refl _, fun _ => rfl⟩, fun _ _ => rfl⟩

/-- What is there when the writer panics. -/
def text92 : Str :=
  g!"SPDXVersion: SPDX-2.3\nSPDXID: SPDXRef-DOCUMENT\nDocumentName: d\n" ++ g!"Created: 2020-01-01T00:00:00Z\n\n" ++
  g!"##### Package: p\n\nPackageName: p\nSPDXID: SPDXRef-P\n" ++ g!"FilesAnalyzed: false\n\n##### Relationships\n\n" ++
  g!"Relationship: SPDXRef-DOCUMENT DESCRIBES SPDXRef-P\n"

theorem text92_written : (nWriteTagValueTo keeper ([] : Str) .v23 insertionSorter doc92 : Res Unit × Str) = (.panic, text92) := by
  have h1 : (nWriteTagValueTo keeper ([] : Str) .v23 insertionSorter doc92).1 = .panic := by decide +kernel
  have h2 : keeper.got (nWriteTagValueTo keeper ([] : Str) .v23 insertionSorter doc92).2 = text92 := by decide +kernel
  exact Prod.ext h1 h2

/-- Writing it panics after the first relationship; so does what the part before the gap says. -/
theorem C92_sample : keeper.Honest ∧ keeper.Good ∧ Blind insertionSorter ∧ SnippetMaps doc92 ∧ Lacks doc92 ∧
    PartBefore doc92 { doc92.doc with packages := [{ name := g!"p", spdxId := g!"P" }], relationships := [rel92 g!"P"] } ∧
    nWriteTagValueTo keeper ([] : Str) .v23 insertionSorter doc92 = (.panic, text92) := by
  refine ⟨keeper_ok.1, keeper_ok.2, insertion_blind, ⟨by simp [doc92], fun p hp f hf => ?_⟩, .inr (.inr (.inr (.inl (by simp [doc92])))), ?_, text92_written⟩
  · simp only [doc92, List.mem_cons, List.not_mem_nil, or_false, Option.some.injEq] at hp
    subst hp
    cases hf
  · refine ⟨rfl, .inr rfl, .inr ⟨rfl, rfl⟩, .inl rfl, .inr ⟨rfl, rfl, rfl, ⟨[none, some (rel92 g!"Q")], rfl⟩⟩, .inl rfl, .inl rfl⟩

/-- The text that a panic leaves behind is not accepted as a document: false.  What is read is a document without what
should have followed the gap. -/
theorem C92_noticed_false : ¬ ∀ (so : Sorter) (v : Version) (n : NDoc) (u : Str), Blind so → SnippetMaps n →
    (nWriteTagValueTo keeper ([] : Str) v so n : Res Unit × Str) = (.panic, u) → ¬ ∃ d, (readTagValues u >>= parseTagValues v) = .ok (some d) := by
  intro h
  refine h insertionSorter .v23 doc92 _ insertion_blind C92_sample.2.2.2.1 text92_written ?_
  have e : ∀ {r : Res (Option Doc)}, (match r with | .ok (some _) => true | _ => false) = true → ∃ d, r = .ok (some d) := by
    intro r hr
    split at hr
    · exact ⟨_, rfl⟩
    · cases hr
  exact e (by decide +kernel)

end Verif
