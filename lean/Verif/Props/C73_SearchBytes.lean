import Verif.Lemmas.SearchBytes
import Verif.Props.C45_IdsDocument

/-!
# C73: a directory whose files are any bytes
-/

namespace Verif
open Spec

/-- **C73.** Any bytes read as exactly one text, and text in UTF-8 reads as itself. -/
theorem C73_reads (b : Bytes) : (∃ s, ReadsAs b s ∧ ∀ t, ReadsAs b t → t = s) ∧ ∀ s, ReadsAs (utf8 s) s := by
  obtain ⟨s, h⟩ := readsAs_exists b
  exact ⟨⟨s, h, fun t ht => readsAs_unique h ht rfl⟩, readsAs_utf8⟩

/-- **C73.** The search in bytes finds the identifiers that stand in the text they read as, in the same order. -/
theorem C73_search (so : Sorter) (sb : ByteSorter) (b : Bytes) (s : Str) (h : ReadsAs b s) :
    ∃ ids, searchFileIDs so (some s) = .ok ids ∧ searchFileIDsB sb (some b) = .ok (ids.map utf8) := by
  obtain ⟨ids, h1, h2, -⟩ := search_reads so sb h
  exact ⟨ids, h1, h2⟩

/-- **C73.** Whatever the bytes of a file are, the identifiers found are sorted, without repetition, made of ASCII
characters, and exactly those that the lines of the text declare. -/
theorem C73_found (sb : ByteSorter) (b : Bytes) (s : Str) (h : ReadsAs b s) :
    ∃ ids, searchFileIDsB sb (some b) = .ok (ids.map utf8) ∧ Lists ids (InText s) ∧
      ∀ x ∈ ids, ∀ c ∈ x, c.toNat < 0x80 := by
  obtain ⟨ids, h1, h2, h3⟩ := search_reads insertionSorter sb h
  obtain ⟨ids', h4, h5, h6, h7⟩ := C32_search insertionSorter s
  rw [h1] at h4
  cases h4
  exact ⟨ids, h2, lists_of h5 h6 h7, fun x hx c hc => kept_is_ascii (h3 x hx c hc)⟩

/-- **C73.** Every directory has a description by the texts its files read as. -/
theorem C73_disk (digests : Bytes → Str × Str × Str) (b : ByteDisk) : ∃ d, SameDisk digests b d := by
  refine ⟨{ absRoot := b.absRoot, tree := b.tree, hashes := fun p => (b.contents p).map digests,
            text := fun p => (b.contents p).map fun x => (readsAs_exists x).choose }, rfl, rfl, fun _ => rfl, fun p => ?_⟩
  cases h : b.contents p with
  | none => left; simp [h]
  | some x => right; exact ⟨x, _, rfl, by simp only [h, Option.map_some], (readsAs_exists x).choose_spec⟩

/-- **C73.** The document built from a directory whose files are any bytes is the one built from the texts they read
as, errors included. -/
theorem C73_document (so : Sorter) (sb : ByteSorter) (sha1 : Str → Str) (digests : Bytes → Str × Str × Str) (b : ByteDisk)
    (d : Disk) (h : SameDisk digests b d) (now name nsPrefix : Str) (builderPatterns patterns : List Str) :
    buildIDsDocumentB so sb sha1 digests b now name nsPrefix builderPatterns patterns =
      buildIDsDocument so sha1 d now name nsPrefix builderPatterns patterns := by
  have e : ∀ config, build so sha1 (b.forBuilder digests) now name config = build so sha1 d now name config := fun config =>
    build_hashes h.root.symm h.tree.symm (fun p => (h.hashes p).symm) now name config
  simp only [buildIDsDocumentB, buildIDsDocument, e, searchFiles_same so sb h]
  rfl

/-- **C73.** The licenses in the document are those that the texts declare, file by file, and nothing else differs from the
document that the builder makes. -/
theorem C73_licenses (so : Sorter) (sb : ByteSorter) (sha1 : Str → Str) (digests : Bytes → Str × Str × Str) (b : ByteDisk)
    (d : Disk) (hd : SameDisk digests b d) (now name nsPrefix : Str) (builderPatterns patterns : List Str) (doc : Doc)
    (h : buildIDsDocumentB so sb sha1 digests b now name nsPrefix builderPatterns patterns = .ok doc) :
    ∃ built p q, plainDocument so sha1 d now name nsPrefix builderPatterns = .ok built ∧ built.packages = [p] ∧
      doc = { built with packages := [q] } ∧ PackageSearched d patterns p q := by
  rw [C73_document so sb sha1 digests b d hd] at h
  exact C45_licenses so sha1 d now name nsPrefix builderPatterns patterns doc h

/-! ## Concrete cases -/

/-- A directory with a program, and a text in Latin-1 with an identifier on its second line. -/
def C73_directory : ByteDisk where
  absRoot := g!"/r"
  tree := .dir (.cons g!"a" .file (.cons g!"b" .file .nil))
  contents p :=
    if p = g!"./a" then
      some ([0x7f, 0x45, 0x4c, 0x46, 0xff, 0x00, 0xc3, 0x0a] ++ utf8 g!"SPDX-License-Identifier:" ++ [0x20, 0xe9, 0xff] ++ utf8 g!"Zlib" ++ [0x80])
    else
      some (utf8 g!"caf" ++ [0xe9, 0x0a, 0xe9, 0xe9, 0xe9, 0xe9, 0xe9, 0xe9, 0xe9] ++ utf8 g!"# SPDX-License-Identifier: MIT OR 0BSD */ h" ++ [0xe9])

theorem C73_sample :
    (do
      let doc ← buildIDsDocumentB insertionSorter byteSorter id (fun b => (asciiText (b.take 3), [], [])) C73_directory [] g!"p" [] [] []
      .ok (doc.packages.flatMap fun p => p.licenseInfoFromFiles ::
        p.files.map fun f => f.name :: f.licenseConcluded :: f.licenseInfoInFiles) : Res (List (List Str))) = .ok
    [[g!"0BSD", g!"MIT", g!"Zlib"], [g!"./a", g!"Zlib", g!"Zlib"], [g!"./b", g!"MIT OR 0BSD", g!"0BSD", g!"MIT"]] := by
  decide +kernel

/-- The first two bytes of the euro sign and a letter. -/
example : ReadsAs [0xe2, 0x82, 0x61] ['\x00', '\x00', 'a'] := by
  refine .other _ (fun c r e => ?_) (.other _ (fun c r e => ?_) (.char 'a' .nil))
  · have h := decodeRune_bytesOf c r
    rw [← e] at h
    have h1 := bytesOf_pos c
    have h2 : decodeRune [0xe2, 0x82, 0x61] = (0xFFFD, 1) := by decide
    rw [h2] at h
    obtain ⟨b0, t, e', -, ht⟩ := bytesOf_shape c
    have h3 : (bytesOf c).length = 1 := (congrArg Prod.snd h).symm
    have h4 : c.toNat = 0xFFFD := (congrArg Prod.fst h).symm
    rw [Char.toNat_inj.1 (h4.trans (by decide : 0xFFFD = '\uFFFD'.toNat))] at h3
    exact absurd h3 (by decide)
  · obtain ⟨b0, t, e', h0, -⟩ := bytesOf_shape c
    rw [e'] at e
    obtain ⟨rfl, -⟩ := List.cons.inj e
    exact absurd h0 (by decide)

end Verif
