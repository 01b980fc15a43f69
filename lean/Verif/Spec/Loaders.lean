import Verif.Model.Loaders
import Verif.Spec.Programs
import Verif.Spec.Built
import Verif.Spec.IdsDocument
import Verif.Spec.SpdxLib

/-!
# Specification: programs that save a document about a directory, and programs that show a document

Specification of C82.
-/

namespace Verif.Spec

/-- The two programs that save a document about a directory. -/
inductive Maker where
  | build
  | search

/-- What surrounds a run: the sorting routine, SHA-1, the time, and what directories hold. -/
structure Workshop where
  so : Sorter
  sha1 : Str → Str
  now : Str
  disks : Str → Disk

/-- The moments of a run. -/
def Maker.run (k : Maker) (w : Workshop) (args : List Str) (m : Mishaps) (fs : FileSystem) : List Moment :=
  match k with
  | .build => buildProgram w.so w.sha1 w.now w.disks args m fs
  | .search => searchProgram w.so w.sha1 w.now w.disks args m fs

/-- The document about a directory: with the settings that are written into the programs. -/
def Maker.document (k : Maker) (w : Workshop) (name root : Str) : Res Doc :=
  match k with
  | .build => Verif.build w.so w.sha1 (w.disks root) w.now name
      { namespacePrefix := g!"https://example.com/whatever/testdata-", creatorType := g!"Person", creator := g!"Jane Doe",
        pathsIgnored := [g!"/.git/", g!"**/__pycache__/", g!"/.ignorefile", g!"**/.DS_Store"] }
  | .search => buildIDsDocument w.so w.sha1 (w.disks root) w.now name g!"https://example.com/whatever/testdata-"
      [g!"/.git/", g!"**/__pycache__/", g!"/.ignorefile", g!"**/.DS_Store"]
      [g!"/Documentation/process/license-rules.rst", g!"/LICENSES/"]

/-- The three lines about the file with number `n`. -/
def fileLines (n : Nat) (f : FileV) : Str :=
  g!"- File " ++ natDigits n ++ g!": " ++ f.name ++ g!"\n    License from file: [" ++ join g!" " f.licenseInfoInFiles ++
    g!"]\n    License concluded: " ++ f.licenseConcluded ++ g!"\n"

/-- What is said about a package: that its files were not analyzed, that it has none, or its first fifty files, numbered
from 1. -/
def packageLines (p : PackageV) : Str :=
  if p.filesAnalyzed = false then g!"Package " ++ p.spdxId ++ g!" (" ++ p.name ++ g!") had FilesAnalyzed: false\n"
  else if p.files = [] then g!"Package " ++ p.spdxId ++ g!" (" ++ p.name ++ g!") has no Files\n"
  else g!"============================\nPackage " ++ p.spdxId ++ g!" (" ++ p.name ++ g!")\nFile info (up to first 50):\n" ++
    ((p.files.take 50).zipIdx 1).flatMap fun f => fileLines f.2 f.1

/-- The first lines about a document that was loaded from a file. -/
def loadedHead (file creation : Str) : Str :=
  g!"Successfully loaded " ++ file ++ g!"\n\n==============\nCreation info:\n==============\n" ++ creation ++ g!"\n\n"

/-- The document describes the package: it is the only one, or a relationship says so. -/
def DescribesPackage (d : Doc) (p : PackageV) : Prop :=
  d.packages = [p] ∨ (1 < d.packages.length ∧ ∃ r ∈ d.relationships, Spec.Says r p.spdxId)

/-- Some attributes of a document, line by line. -/
def attributesText (name license place version : Str) : Str :=
  [List.replicate 80 '=', g!"Some Attributes of the Document:", g!"Document Name:         " ++ name,
    g!"DataLicense:           " ++ license, g!"Document Namespace:    " ++ place, g!"SPDX Version:          " ++ version,
    List.replicate 80 '='].flatMap (· ++ g!"\n")

/-- The file exists, can be opened and delivers the text. -/
structure Delivers (m : Mishaps) (fs : FileSystem) (file text : Str) : Prop where
  opens : m.openFails = false
  exists_ : fs file = some text
  whole : (m.deliver text).fails = false
  same : (m.deliver text).pieces.flatten = text

/-- The loader of files of a format. -/
def FileKind.load (k : FileKind) (w : Surroundings) (creation : Option CreationInfo → Str) (reason : Str) :
    List Str → Mishaps → FileSystem → Shown :=
  match k with
  | .tagValue => tvLoader w.so w.copy creation reason
  | .json => jsonLoader w.so w.copy w.float w.odd
  | .yaml => yamlLoader w.y w.so w.copy

end Verif.Spec
