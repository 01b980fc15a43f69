import Verif.Model.SearchBytes

/-!
# Specification: files of any bytes read as text
-/

namespace Verif.Spec

/-- The bytes read as text in UTF-8, with a character that stands in no identifier (NUL) for every byte that is part of no
character. -/
inductive ReadsAs : Bytes → Str → Prop
  | nil : ReadsAs [] []
  | char (c : Char) {b : Bytes} {s : Str} (h : ReadsAs b s) : ReadsAs (bytesOf c ++ b) (c :: s)
  | other (x : UInt8) {b : Bytes} {s : Str} (hx : ∀ c r, x :: b ≠ bytesOf c ++ r) (h : ReadsAs b s) :
    ReadsAs (x :: b) ('\x00' :: s)

/-- The same directory, once with the bytes of its files and once with their digests and what they read as. -/
structure SameDisk (digests : Bytes → Str × Str × Str) (b : ByteDisk) (d : Disk) : Prop where
  root : d.absRoot = b.absRoot
  tree : d.tree = b.tree
  hashes : ∀ p, d.hashes p = (b.contents p).map digests
  text : ∀ p, (b.contents p = none ∧ d.text p = none) ∨
    ∃ bytes s, b.contents p = some bytes ∧ d.text p = some s ∧ ReadsAs bytes s

end Verif.Spec
