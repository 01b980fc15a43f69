import Verif.Spec.NilConvert

/-!
# Specification: what a conversion does with empty parts

Specification of C91.  The library that copies the fields may treat a pointer to an empty struct as nil (`e`), or not.
-/

namespace Verif.Spec

/-- What may be empty, without what is empty if the library treats empty structs as nil. -/
def unlessEmpty {α : Type} (e : Bool) (empty : α → Bool) (o : Option α) : Option α :=
  o.filter fun x => !(e && empty x)

/-- Nothing is set in a snippet of version `v`. -/
def emptySnippet (v : Version) (s : Snippet) : Bool := snippetIn v s = {}

/-- Nothing is set in a file of version `v`, and its lists have no entries, not even missing ones. -/
def emptyFile (v : Version) (n : NFile) : Bool := fileIn v n.file = {} ∧ n.artifacts = [] ∧ n.snippets = []

/-- Nothing is set in a package of version `v`.  Before 2.3 the verification code is a struct and not a pointer. -/
def emptyPackage (v : Version) (n : NPackage) : Bool :=
  (if v = .v23 then packageIn v n.pkg else plainCode (packageIn v n.pkg)) = {} ∧ n.externalRefs = [] ∧ n.files = []

/-- A file without empty parts. -/
def fileParts (e : Bool) (v : Version) (n : NFile) : NFile :=
  { n with
    artifacts := n.artifacts.map (unlessEmpty e (· = {}))
    snippets := n.snippets.map fun x => (x.1, unlessEmpty e (emptySnippet v) x.2) }

/-- A package without empty parts. -/
def packageParts (e : Bool) (v : Version) (n : NPackage) : NPackage :=
  { pkg := { n.pkg with supplier := unlessEmpty e (· = {}) n.pkg.supplier
                        originator := unlessEmpty e (· = {}) n.pkg.originator }
    externalRefs := n.externalRefs.map (unlessEmpty e (· = {}))
    files := n.files.map fun o => (unlessEmpty e (emptyFile v) o).map (fileParts e v) }

/-- A document of version `v` without empty parts: their places in lists stay, with nothing in them. -/
def documentParts (e : Bool) (v : Version) (n : NDoc) : NDoc :=
  { doc := { n.doc with creationInfo := unlessEmpty e (· = {}) n.doc.creationInfo }
    packages := n.packages.map fun o => (unlessEmpty e (emptyPackage v) o).map (packageParts e v)
    files := n.files.map fun o => (unlessEmpty e (emptyFile v) o).map (fileParts e v)
    otherLicenses := n.otherLicenses.map (unlessEmpty e (· = {}))
    relationships := n.relationships.map (unlessEmpty e (· = {}))
    annotations := n.annotations.map (unlessEmpty e (· = {}))
    reviews := n.reviews.map (unlessEmpty e (· = {})) }

/-- A document of version `a` in the next or previous version `b`. -/
def stepped (e : Bool) (a b : Version) (name : Str) (n : NDoc) : NDoc :=
  nRestated name (nPlainCodes (nDocumentIn (older a b) (documentParts e a n)))

end Verif.Spec
