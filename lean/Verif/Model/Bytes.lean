import Verif.Model.TVWrite
import Verif.Model.TVRead

/-!
# Text as bytes

In Go a string is a sequence of bytes, and the functions of `strings` and `unicode/utf8` look for characters in it.
The rest of the model works on characters.  This file has the functions on bytes that the tag-value reader uses, the
tag-value reader on bytes, and the printing of the tag-value writer on bytes.  Trusted reading of the Go standard library
(not part of `/repo`) in the first three sections.
-/

namespace Verif

/-- A Go string. -/
abbrev Bytes := List UInt8

/-! ## `unicode/utf8` -/

/-- The bytes of a character (`utf8.AppendRune`). -/
def bytesOf (c : Char) : Bytes :=
  let n := c.toNat
  if n < 0x80 then [.ofNat n]
  else if n < 0x800 then [.ofNat (0xC0 + n / 64), .ofNat (0x80 + n % 64)]
  else if n < 0x10000 then [.ofNat (0xE0 + n / 4096), .ofNat (0x80 + n / 64 % 64), .ofNat (0x80 + n % 64)]
  else [.ofNat (0xF0 + n / 262144), .ofNat (0x80 + n / 4096 % 64), .ofNat (0x80 + n / 64 % 64), .ofNat (0x80 + n % 64)]

/-- The bytes of a text.  Go source is UTF-8, so `utf8 g!"abc"` is the Go string `"abc"`. -/
def utf8 (s : Str) : Bytes := s.flatMap bytesOf

/-- `utf8.RuneStart`: not the second or a later byte of a character. -/
def runeStart (b : UInt8) : Bool := b.toNat < 0x80 || 0xC0 ≤ b.toNat

/-- `utf8.RuneError`, and one byte is passed over. -/
def runeError : Nat × Nat := (0xFFFD, 1)

/-- `utf8.DecodeRuneInString`: the first character and the number of its bytes.  Bytes that are no character in
UTF-8 are passed over one by one. -/
def decodeRune : Bytes → Nat × Nat
  | [] => (0xFFFD, 0)
  | b0 :: t =>
    let n0 := b0.toNat
    if n0 < 0x80 then (n0, 1)
    else if n0 < 0xC2 || 0xF4 < n0 then runeError
    else match t with
      | [] => runeError
      | b1 :: t =>
        let lo := if n0 = 0xE0 then 0xA0 else if n0 = 0xF0 then 0x90 else 0x80
        let hi := if n0 = 0xED then 0x9F else if n0 = 0xF4 then 0x8F else 0xBF
        if b1.toNat < lo || hi < b1.toNat then runeError
        else if n0 < 0xE0 then (n0 % 32 * 64 + b1.toNat % 64, 2)
        else match t with
          | [] => runeError
          | b2 :: t =>
            if b2.toNat < 0x80 || 0xBF < b2.toNat then runeError
            else if n0 < 0xF0 then (n0 % 16 * 4096 + b1.toNat % 64 * 64 + b2.toNat % 64, 3)
            else match t with
              | [] => runeError
              | b3 :: _ =>
                if b3.toNat < 0x80 || 0xBF < b3.toNat then runeError
                else (n0 % 8 * 262144 + b1.toNat % 64 * 4096 + b2.toNat % 64 * 64 + b3.toNat % 64, 4)

/-- The number of the last bytes `utf8.DecodeLastRuneInString` tries, given the bytes before the last one from the end
on: up to the nearest first byte of a character, at most four. -/
def lastRuneWidth : Bytes → Option Nat
  | a :: rest =>
    if runeStart a then some 2 else match rest with
      | b :: rest =>
        if runeStart b then some 3 else match rest with
          | c :: _ => if runeStart c then some 4 else none
          | [] => none
      | [] => none
  | [] => none

/-- `utf8.DecodeLastRuneInString`: the last character and the number of its bytes. -/
def decodeLastRune (s : Bytes) : Nat × Nat :=
  match s.reverse with
  | [] => (0xFFFD, 0)
  | b :: before =>
    if b.toNat < 0x80 then (b.toNat, 1)
    else match lastRuneWidth before with
      | none => runeError
      | some k =>
        let r := decodeRune (s.drop (s.length - k))
        if r.2 = k then r else runeError

/-! ## `strings` -/

/-- `unicode.IsSpace` on the number of a character. -/
def isSpaceRune (n : Nat) : Bool :=
  (9 ≤ n && n ≤ 13) || n == 32 || n == 0x85 || n == 0xA0 || n == 0x1680 ||
  (0x2000 ≤ n && n ≤ 0x200A) || n == 0x2028 || n == 0x2029 || n == 0x202F || n == 0x205F || n == 0x3000

/-- The loop of `strings.TrimLeftFunc`; every round takes at least one byte. -/
def trimLeftLoop (p : Nat → Bool) : Nat → Bytes → Bytes
  | 0, s => s
  | n + 1, s =>
    if s = [] then []
    else if p (decodeRune s).1 then trimLeftLoop p n (s.drop (decodeRune s).2) else s

/-- `strings.TrimLeftFunc`. -/
def trimLeftB (p : Nat → Bool) (s : Bytes) : Bytes := trimLeftLoop p s.length s

/-- The loop of `strings.TrimRightFunc`; every round takes at least one byte. -/
def trimRightLoop (p : Nat → Bool) : Nat → Bytes → Bytes
  | 0, s => s
  | n + 1, s =>
    if s = [] then []
    else if p (decodeLastRune s).1 then trimRightLoop p n (s.take (s.length - (decodeLastRune s).2)) else s

/-- `strings.TrimRightFunc`. -/
def trimRightB (p : Nat → Bool) (s : Bytes) : Bytes := trimRightLoop p s.length s

/-- `strings.TrimSpace`. -/
def trimSpaceB (s : Bytes) : Bytes := trimRightB isSpaceRune (trimLeftB isSpaceRune s)

/-- `strings.HasPrefix`. -/
def hasPrefixB (p s : Bytes) : Bool := p.isPrefixOf s

/-- `strings.HasSuffix`. -/
def hasSuffixB (p s : Bytes) : Bool := p.isSuffixOf s

/-- `strings.CutPrefix`. -/
def cutPrefixB : Bytes → Bytes → Option Bytes
  | [], s => some s
  | _ :: _, [] => none
  | p :: ps, c :: cs => if p = c then cutPrefixB ps cs else none

/-- `strings.Cut`, `strings.SplitN(s, sep, 2)`: what is before and after the first occurrence. -/
def cutB (sep : Bytes) : Bytes → Option (Bytes × Bytes)
  | [] => if sep = [] then some ([], []) else none
  | c :: t =>
    match cutPrefixB sep (c :: t) with
    | some r => some ([], r)
    | none => (cutB sep t).map fun (a, b) => (c :: a, b)

/-- `strings.Contains`. -/
def containsB (sub s : Bytes) : Bool := (cutB sub s).isSome

/-- `strings.Split(s, sep)` for a separator of one byte. -/
def splitByte (sep : UInt8) : Bytes → List Bytes
  | [] => [[]]
  | c :: t =>
    if c = sep then [] :: splitByte sep t
    else match splitByte sep t with
      | [] => [[c]]      -- not reachable: `splitByte` is never empty
      | w :: ws => (c :: w) :: ws

/-- Go's `a <= b` on strings. -/
def bytesLe : Bytes → Bytes → Bool
  | [], _ => true
  | _ :: _, [] => false
  | a :: as, b :: bs => if a = b then bytesLe as bs else a.toNat < b.toNat

/-! ## `bufio.Scanner` -/

/-- `bufio.dropCR`. -/
def dropCRB (l : Bytes) : Bytes :=
  match l.reverse with
  | b :: t => if b = 13 then t.reverse else l
  | [] => l

/-- The raw lines of a text: separated by newlines; a final empty piece is not a line. -/
def rawLinesB (s : Bytes) : List Bytes :=
  let parts := splitByte 10 s
  if parts.getLast? = some [] then parts.dropLast else parts

/-- `bufio.Scanner` with `ScanLines`, as `scanLines`. -/
def scanLinesB (s : Bytes) : Res (List Bytes) :=
  let ls := rawLinesB s
  if ls.all (fun l => l.length < maxScanToken) then .ok (ls.map dropCRB) else .err

/-! ## The tag-value reader -/

/-- `TagValuePair` (tagvalue/reader/reader.go:14-17). -/
structure BPair where
  tag : Bytes
  value : Bytes
  deriving DecidableEq, Repr

/-- `tvReader` (tagvalue/reader/reader.go:57-63).  `currentLine` is never read and is left out. -/
structure BReader where
  midtext : Bool := false
  tvList : List BPair := []
  currentTag : Bytes := []
  currentValue : Bytes := []
  deriving DecidableEq, Repr

/-- `readNextLineFromReady` (tagvalue/reader/reader.go:82-139). -/
def readLineReadyB (r : BReader) (line : Bytes) : Res BReader :=
  let line2 := trimLeftB isSpaceRune line
  if line2 = [] then .ok r
  else if hasPrefixB (utf8 g!"#") line2 then .ok r
  else match cutB (utf8 g!":") line2 with
    | none => .err
    | some (t, rest) =>
      let tag := trimSpaceB t
      match cutB (utf8 g!"<text>") rest with
      | none =>
        .ok { r with tvList := r.tvList ++ [⟨tag, trimSpaceB rest⟩], currentTag := [], currentValue := [] }
      | some (_, body) =>
        match cutB (utf8 g!"</text>") body with
        | some (inner, _) =>
          .ok { r with tvList := r.tvList ++ [⟨tag, inner⟩], currentTag := [], currentValue := [] }
        | none =>
          .ok { r with currentTag := tag, currentValue := body ++ utf8 g!"\n", midtext := true }

/-- `readNextLineFromMidtext` (tagvalue/reader/reader.go:141-161). -/
def readLineMidtextB (r : BReader) (line : Bytes) : Res BReader :=
  match cutB (utf8 g!"</text>") line with
  | none => .ok { r with currentValue := r.currentValue ++ (line ++ utf8 g!"\n") }
  | some (inner, _) =>
    .ok { midtext := false, tvList := r.tvList ++ [⟨r.currentTag, r.currentValue ++ inner⟩],
          currentTag := [], currentValue := [] }

/-- `readNextLine` (tagvalue/reader/reader.go:72-80). -/
def readLineB (r : BReader) (line : Bytes) : Res BReader :=
  if r.midtext then readLineMidtextB r line else readLineReadyB r line

/-- The scanning loop (tagvalue/reader/reader.go:25-31). -/
def readLinesB : BReader → List Bytes → Res BReader
  | r, [] => .ok r
  | r, l :: ls => match readLineB r l with
    | .ok r' => readLinesB r' ls
    | .err => .err
    | .panic => .panic

/-- `finalize` (tagvalue/reader/reader.go:65-70). -/
def BReader.finalize (r : BReader) : Res (List BPair) :=
  if r.midtext then .err else .ok r.tvList

/-- `ReadTagValues` (tagvalue/reader/reader.go:21-50). -/
def readTagValuesB (text : Bytes) : Res (List BPair) := do
  let lines ← scanLinesB text
  let r ← readLinesB {} lines
  r.finalize

/-! ## The tag-value writer -/

/-- `textify` (spdx/v2/v2_3/tagvalue/writer/util.go:10-16). -/
def textifyB (s : Bytes) : Bytes :=
  if containsB (utf8 g!"\n") s then utf8 g!"<text>" ++ s ++ utf8 g!"</text>" else s

/-- `fmt.Fprintf(w, "Tag: %s\n", textify(v))`, which prints the bytes of the strings as they are. -/
def emitFieldB (p : BPair) : Bytes := p.tag ++ utf8 g!": " ++ textifyB p.value ++ utf8 g!"\n"

end Verif
