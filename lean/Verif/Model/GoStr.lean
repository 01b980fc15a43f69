/-!
# Go values used throughout the model

Go strings, the `strings`, `unicode`, `bufio`, `sort` and `strconv` functions the code calls, and
the result type of Go functions that return an error or can panic.

Trusted reading of the Go standard library (not part of `/repo`).  A Go string is a byte sequence;
the model covers valid UTF-8 text and represents it by its list of code points.
-/

namespace Verif

/-- Go text.  Simplification: only valid UTF-8, represented by code points. -/
abbrev Str := List Char

open Lean in
/-- `g!"abc"` is the explicit list `['a', 'b', 'c']` (a purely syntactic abbreviation). -/
macro:max "g!" s:str : term => do
  let elems : Array (TSyntax `term) :=
    s.getString.toList.toArray.map fun c => ⟨Syntax.mkCharLit c⟩
  `(([$elems,*] : Str))

/-- Result of a Go call: a value, a returned `error` (message not modelled), or a run-time panic. -/
inductive Res (α : Type) where
  | ok (a : α)
  | err
  | panic
  deriving DecidableEq, Repr

namespace Res

/-- Sequencing: Go's `if err != nil { return err }`; a panic propagates. -/
def bind {α β : Type} : Res α → (α → Res β) → Res β
  | ok a, f => f a
  | err, _ => err
  | panic, _ => panic

instance : Monad Res where
  pure := ok
  bind := bind

/-- The value is returned without error. -/
def isOk {α : Type} : Res α → Bool
  | ok _ => true
  | _ => false

/-- An `Option` read as value-or-error. -/
def ofOption {α : Type} : Option α → Res α
  | some a => ok a
  | none => err

@[simp] theorem bind_ok {α β : Type} (a : α) (f : α → Res β) : (Res.ok a >>= f) = f a := rfl
@[simp] theorem bind_err {α β : Type} (f : α → Res β) : ((Res.err : Res α) >>= f) = .err := rfl
@[simp] theorem bind_panic {α β : Type} (f : α → Res β) : ((Res.panic : Res α) >>= f) = .panic := rfl
@[simp] theorem pure_eq {α : Type} (a : α) : (pure a : Res α) = .ok a := rfl
@[simp] theorem ofOption_some {α : Type} (a : α) : ofOption (some a) = .ok a := rfl
@[simp] theorem ofOption_none {α : Type} : ofOption (none : Option α) = .err := rfl

end Res

/-- `unicode.IsSpace`: U+0009–U+000D, space, U+0085, U+00A0 and the Unicode space separators. -/
def isSpace (c : Char) : Bool :=
  let n := c.toNat
  (9 ≤ n && n ≤ 13) || n == 32 || n == 0x85 || n == 0xA0 || n == 0x1680 ||
  (0x2000 ≤ n && n ≤ 0x200A) || n == 0x2028 || n == 0x2029 || n == 0x202F || n == 0x205F || n == 0x3000

/-- `strings.TrimLeftFunc`. -/
def trimLeft (p : Char → Bool) (s : Str) : Str := s.dropWhile p

/-- `strings.TrimRightFunc`. -/
def trimRight (p : Char → Bool) (s : Str) : Str := (s.reverse.dropWhile p).reverse

/-- `strings.TrimFunc` / `strings.Trim` with the cutset as a predicate. -/
def trim (p : Char → Bool) (s : Str) : Str := trimRight p (trimLeft p s)

/-- `strings.TrimSpace`. -/
def trimSpace (s : Str) : Str := trim isSpace s

/-- `strings.HasPrefix`. -/
def hasPrefix (p : Str) (s : Str) : Bool := p.isPrefixOf s

/-- `strings.HasSuffix`. -/
def hasSuffix (p : Str) (s : Str) : Bool := p.reverse.isPrefixOf s.reverse

/-- `strings.CutPrefix`: `some rest` if the prefix is present. -/
def cutPrefix : Str → Str → Option Str
  | [], s => some s
  | _ :: _, [] => none
  | p :: ps, c :: cs => if p = c then cutPrefix ps cs else none

/-- `strings.TrimPrefix`: unchanged if the prefix is absent. -/
def trimPrefix (p : Str) (s : Str) : Str :=
  match cutPrefix p s with
  | some r => r
  | none => s

/-- `strings.TrimSuffix`: unchanged if the suffix is absent. -/
def trimSuffix (p : Str) (s : Str) : Str := (trimPrefix p.reverse s.reverse).reverse

/-- Position of the first occurrence of `sep`: the text before and after it (`strings.Cut`,
`strings.SplitN(s, sep, 2)` with a non-empty separator). -/
def cut (sep : Str) : Str → Option (Str × Str)
  | [] => if sep = [] then some ([], []) else none
  | c :: t =>
    match cutPrefix sep (c :: t) with
    | some r => some ([], r)
    | none => (cut sep t).map fun (a, b) => (c :: a, b)

/-- `strings.Contains`. -/
def contains (sub s : Str) : Bool := (cut sub s).isSome

/-- `strings.Split(s, sep)` for a one-character separator. -/
def splitChar (sep : Char) : Str → List Str
  | [] => [[]]
  | c :: t =>
    if c = sep then [] :: splitChar sep t
    else match splitChar sep t with
      | [] => [[c]]      -- not reachable: `splitChar` is never empty
      | w :: ws => (c :: w) :: ws

/-- `strings.ReplaceAll` for single characters. -/
def replaceChar (old new : Char) (s : Str) : Str := s.map fun c => if c = old then new else c

/-- `strings.Join`. -/
def join (sep : Str) : List Str → Str
  | [] => []
  | [a] => a
  | a :: b :: l => a ++ sep ++ join sep (b :: l)

/-- Number of bytes of a code point in UTF-8. -/
def runeLen (c : Char) : Nat :=
  let n := c.toNat
  if n < 0x80 then 1 else if n < 0x800 then 2 else if n < 0x10000 then 3 else 4

/-- `len(s)`: the number of bytes. -/
def byteLen (s : Str) : Nat := (s.map runeLen).sum

/-- Go's `a <= b` on strings (byte-wise, which on valid UTF-8 is code-point-wise). -/
def strLe : Str → Str → Bool
  | [], _ => true
  | _ :: _, [] => false
  | a :: as, b :: bs => if a = b then strLe as bs else a.toNat < b.toNat

/-- Go's `a < b` on strings. -/
def strLt (a b : Str) : Bool := strLe a b && !(a == b)

/-- A correct sorting routine by a string key: what the contract of `sort.Slice` with
`less(i,j) = key(i) < key(j)` (and `sort.Strings`) promises.  `sort.Slice` is not stable, so the
order of elements with equal keys is left open. -/
structure Sorter where
  run : {α : Type} → (α → Str) → List α → List α
  perm : ∀ {α : Type} (k : α → Str) (l : List α), (run k l).Perm l
  sorted : ∀ {α : Type} (k : α → Str) (l : List α), (run k l).Pairwise fun a b => strLe (k a) (k b) = true

/-- `strconv.Itoa` / `%d` on a non-negative integer. -/
def natDigits (n : Nat) : Str := Nat.toDigits 10 n

/-- `%d` on an `int`. -/
def itoa : Int → Str
  | .ofNat n => natDigits n
  | .negSucc n => '-' :: natDigits (n + 1)

/-- Decimal digit value. -/
def digitVal (c : Char) : Option Nat :=
  if '0'.toNat ≤ c.toNat ∧ c.toNat ≤ '9'.toNat then some (c.toNat - '0'.toNat) else none

/-- Accumulates decimal digits; fails on any other character. -/
def atoiDigits : Nat → Str → Option Nat
  | acc, [] => some acc
  | acc, c :: t => match digitVal c with
    | some d => atoiDigits (acc * 10 + d) t
    | none => none

/-- `strconv.Atoi` on a 64-bit platform: optional sign, at least one decimal digit, and the value
must fit in an `int64`. -/
def atoi (s : Str) : Option Int :=
  let (neg, ds) := match s with
    | '-' :: t => (true, t)
    | '+' :: t => (false, t)
    | t => (false, t)
  if ds = [] then none
  else match atoiDigits 0 ds with
    | none => none
    | some n =>
      if neg then (if n ≤ 2 ^ 63 then some (-(n : Int)) else none)
      else (if n < 2 ^ 63 then some (n : Int) else none)

/-- The largest token `bufio.Scanner` returns: its buffer holds 64 KiB including the newline. -/
def maxScanToken : Nat := 65536

/-- Removes one trailing carriage return (`bufio.ScanLines` does this to every line). -/
def dropCR (l : Str) : Str :=
  match l.reverse with
  | '\r' :: t => t.reverse
  | _ => l

/-- The raw lines of a text: separated by newlines; a final empty piece is not a line. -/
def rawLines (s : Str) : List Str :=
  let parts := splitChar '\n' s
  if parts.getLast? = some [] then parts.dropLast else parts

/-- `bufio.Scanner` with `ScanLines`: the lines, or an error if one does not fit the buffer.
Simplification: Go hands out the lines before a too-long one first; since the caller discards
everything on error only the error is kept. -/
def scanLines (s : Str) : Res (List Str) :=
  let ls := rawLines s
  if ls.all (fun l => byteLen l < maxScanToken) then .ok (ls.map dropCR) else .err

end Verif
