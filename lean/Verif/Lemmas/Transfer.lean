import Verif.Spec.Transfer
import Verif.Lemmas.SameDoc
import Verif.Lemmas.WriteSays
import Verif.Props.C13_C14_Writer

/-!
# Lemmas about the same document in another order
-/

namespace Verif
open Spec

theorem UpToOrder.all {α : Type} {R : α → α → Prop} {P : α → Prop} (hP : ∀ a b, R a b → P a → P b) {l m : List α}
    (h : UpToOrder R l m) (hl : ∀ a ∈ l, P a) : ∀ b ∈ m, P b := by
  obtain ⟨l', h1, h2⟩ := h
  replace hl : ∀ a ∈ l', P a := fun a ha => hl a (h1.mem_iff.2 ha)
  clear h1
  induction h2 with
  | nil => simp
  | cons r _ ih =>
    intro b hb
    rcases List.mem_cons.1 hb with rfl | hb
    · exact hP _ _ r (hl _ (by simp))
    · exact ih (fun a ha => hl a (by simp [ha])) b hb

theorem repFile_same {v : Version} (f g : FileV) (h : SameFile f g) (hf : RepFile v f) : RepFile v g := by
  have key : ∀ s, f.snippets.Perm s → RepFile v { f with snippets := s } := fun s hs =>
    { hf with
      snippets := fun x hx => hf.snippets x (hs.mem_iff.2 hx)
      snippetKeys := (hs.map _).nodup_iff.1 hf.snippetKeys }
  rw [h.1]
  exact key _ h.2

theorem repPackage_same {v : Version} (p q : PackageV) (h : SamePackage p q) (hp : RepPackage v p) : RepPackage v q := by
  have key : ∀ s, SameFiles p.files s → RepPackage v { p with files := s } := fun s hs =>
    { hp with files := UpToOrder.all repFile_same hs hp.files }
  rw [h.1]
  exact key _ h.2

theorem representable_same {v : Version} {d e : Doc} (h : SameDoc d e) (hd : Representable v d) : Representable v e := by
  have key : ∀ a b c, d.externalDocumentRefs.Perm a → SamePackages d.packages b → SameFiles d.files c →
      Representable v { d with externalDocumentRefs := a, packages := b, files := c } := fun a b c h1 h2 h3 =>
    { hd with
      externalDocumentRefs := fun x hx => hd.externalDocumentRefs x (h1.mem_iff.2 hx)
      packages := UpToOrder.all repPackage_same h2 hd.packages
      files := UpToOrder.all repFile_same h3 hd.files }
  rw [h.rest]
  exact key _ _ _ h.refs h.packages h.files

theorem jsonFile_same {html : Bool} (f g : FileV) (h : SameFile f g) (hf : JsonFile html f) : JsonFile html g := by
  rw [h.1]
  exact ⟨hf.id, hf.annotations⟩

theorem jsonPackage_same {html : Bool} (p q : PackageV) (h : SamePackage p q) (hp : JsonPackage html p) : JsonPackage html q := by
  have key : ∀ s, SameFiles p.files s → JsonPackage html { p with files := s } := fun s hs =>
    { hp with files := UpToOrder.all jsonFile_same hs hp.files }
  rw [h.1]
  exact key _ h.2

theorem jsonDocument_same {html : Bool} {d e : Doc} (h : SameDoc d e) (hd : JsonDocument html d) : JsonDocument html e := by
  have key : ∀ a b c, d.externalDocumentRefs.Perm a → SamePackages d.packages b → SameFiles d.files c →
      JsonDocument html { d with externalDocumentRefs := a, packages := b, files := c } := fun a b c h1 h2 h3 =>
    { hd with
      refs := fun x hx => hd.refs x (h1.mem_iff.2 hx)
      packages := UpToOrder.all jsonPackage_same h2 hd.packages
      files := UpToOrder.all jsonFile_same h3 hd.files }
  rw [h.rest]
  exact key _ _ _ h.refs h.packages h.files

theorem wholeFile_same {v : Version} (f g : FileV) (h : SameFile f g) (hf : WholeFile v f) : WholeFile v g := by
  have key : ∀ s, f.snippets.Perm s → WholeFile v { f with snippets := s } := fun s hs =>
    { hf with snippets := by rw [hf.snippets] at hs; exact hs.nil_eq.symm }
  rw [h.1]
  exact key _ h.2

theorem wholePackage_same {v : Version} (p q : PackageV) (h : SamePackage p q) (hp : WholePackage v p) : WholePackage v q := by
  have key : ∀ s, SameFiles p.files s → WholePackage v { p with files := s } := fun s hs =>
    { hp with files := UpToOrder.all wholeFile_same hs hp.files }
  rw [h.1]
  exact key _ h.2

theorem wholeDoc_same {v : Version} {d e : Doc} (h : SameDoc d e) (hd : WholeDoc v d) : WholeDoc v e := by
  have key : ∀ a b c, SamePackages d.packages b → SameFiles d.files c →
      WholeDoc v { d with externalDocumentRefs := a, packages := b, files := c } := fun a b c h2 h3 =>
    { hd with
      packages := UpToOrder.all wholePackage_same h2 hd.packages
      files := UpToOrder.all wholeFile_same h3 hd.files }
  rw [h.rest]
  exact key _ _ _ h.packages h.files

/-- What JSON can carry with HTML escapes it can carry without. -/
theorem htmlSafe_weaken {html : Bool} {s : Str} (h : HtmlSafe true s) : HtmlSafe html s := fun _ => h rfl

theorem jsonId_weaken {html : Bool} {p s : Str} (h : JsonId true p s) : JsonId html p s := { h with safe := htmlSafe_weaken h.safe }

theorem jsonAnnotation_weaken {html : Bool} {a : Annotation} (h : JsonAnnotation true a) : JsonAnnotation html a :=
  { h with safeKind := htmlSafe_weaken h.safeKind, safeName := htmlSafe_weaken h.safeName }

theorem jsonFile_weaken {html : Bool} {f : FileV} (h : JsonFile true f) : JsonFile html f :=
  ⟨jsonId_weaken h.id, fun a ha => jsonAnnotation_weaken (h.annotations a ha)⟩

theorem jsonParty_weaken {html : Bool} {k n : Str} (h : JsonPartyIn true k n) : JsonPartyIn html k n :=
  ⟨h.party, htmlSafe_weaken h.safeKind, htmlSafe_weaken h.safeName⟩

theorem jsonRef_weaken {html : Bool} {r : DocElementID} (h : JsonRefIn true r) : JsonRefIn html r :=
  ⟨h.ref, htmlSafe_weaken h.safeDocument, htmlSafe_weaken h.safeElement⟩

theorem jsonPointer_weaken {html : Bool} {p : RangePointer} (h : JsonPointer true p) : JsonPointer html p :=
  { h with file := jsonId_weaken h.file }

theorem jsonDocument_weaken {html : Bool} {d : Doc} (h : JsonDocument true d) : JsonDocument html d where
  id := jsonId_weaken h.id
  refs r hr := jsonId_weaken (h.refs r hr)
  creators i hi c hc := have := h.creators i hi c hc
    ⟨this.named, this.agent, htmlSafe_weaken this.safeKind, htmlSafe_weaken this.safeName⟩
  packages p hp := have := h.packages p hp
    ⟨jsonId_weaken this.id, fun s hs => jsonParty_weaken (this.supplier s hs), fun s hs => jsonParty_weaken (this.originator s hs),
      fun f hf => jsonFile_weaken (this.files f hf), fun a ha => jsonAnnotation_weaken (this.annotations a ha)⟩
  files f hf := jsonFile_weaken (h.files f hf)
  relationships r hr := have := h.relationships r hr
    ⟨jsonRef_weaken this.1, jsonRef_weaken this.2⟩
  annotations a ha := jsonAnnotation_weaken (h.annotations a ha)
  snippets s hs := have := h.snippets s hs
    ⟨jsonId_weaken this.id, jsonId_weaken this.fromFile, fun r hr =>
      ⟨jsonPointer_weaken (this.ranges r hr).1, jsonPointer_weaken (this.ranges r hr).2⟩⟩

/-- The pairs of a written document begin with its version. -/
theorem pairs_begin (v : Version) (so : Sorter) (d : Doc) (ci : CreationInfo) (h : d.spdxVersion ≠ []) :
    ∃ r, pairsOf (renderBody v so d ci) = ⟨g!"SPDXVersion", d.spdxVersion⟩ :: r := by
  simp only [renderBody, renderHeader, opt, if_neg h, List.append_assoc, List.cons_append, List.nil_append, pairsOf,
    List.flatMap_cons, Item.pairs]
  exact ⟨_, rfl⟩

end Verif
