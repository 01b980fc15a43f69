import Verif.Spec.Representable
import Verif.Spec.IdsDocument

/-!
# Specification: ordinary inputs of the builder
-/

namespace Verif.Spec

/-- A hexadecimal number. -/
def IsHex (s : Str) : Prop := s ≠ [] ∧ ∀ c ∈ s, c ∈ ['0', '1', '2', '3', '4', '5', '6', '7', '8', '9', 'a', 'b', 'c', 'd', 'e', 'f']

/-- A package name without white space or colon, a one-line place and time, a creator of a known kind,
hexadecimal digests, and file names that are one-line texts. -/
structure PlainBuild (sha1 : Str → Str) (d : Disk) (now name : Str) (config : BuildConfig) : Prop where
  packageName : Ident name
  place : OneLine (config.namespacePrefix ++ name)
  creator : RepAgent config.creatorType config.creator
  time : OneLine (if config.testCreated ≠ [] then config.testCreated else now)
  digest : ∀ s, IsHex (sha1 s)
  hashes : ∀ p a b c, d.hashes p = some (a, b, c) → IsHex a ∧ IsHex b ∧ IsHex c
  paths : ∀ p, FileAt d.tree p → OneLine (pathText p)

/-- Every short-form identifier found is a one-line text and not empty. -/
def PlainTags (d : Disk) (patterns : List Str) : Prop := ∀ name x, Tagged d patterns name x → Line1 x

end Verif.Spec
