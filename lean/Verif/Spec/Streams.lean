import Verif.Model.Streams

/-!
# Specification: what a writer does

Specification of C63: what `io.Writer` promises, and two writers to try it on.
-/

namespace Verif

/-- The contract of `io.Writer`: a part of what is given arrives, everything if the call succeeds. -/
def Sink.Honest (k : Sink) : Prop :=
  ∀ s p, ∃ q, k.got (k.write s p).1 = k.got s ++ q ∧ q <+: p ∧ ((k.write s p).2 = true → q = p)

/-- After a failure nothing arrives any more, and every call fails. -/
def Sink.Dead (k : Sink) : Prop :=
  ∀ s p q, (k.write s p).2 = false →
    k.got (k.write (k.write s p).1 q).1 = k.got (k.write s p).1 ∧ (k.write (k.write s p).1 q).2 = false

/-- Every call succeeds. -/
def Sink.Good (k : Sink) : Prop := ∀ s p, (k.write s p).2 = true

/-- Writing JSON and YAML: nothing is written if the document cannot be encoded, the whole text arrives if nil is
returned, and otherwise an error is returned and a part of it arrives. -/
def ReportsLoss (k : Sink) (s : k.State) (text : Res Str) (out : Res Unit × k.State) : Prop :=
  match text with
  | .ok t => (out.1 = .ok () ∧ k.got out.2 = k.got s ++ t) ∨ (out.1 = .err ∧ ∃ q, k.got out.2 = k.got s ++ q ∧ q <+: t)
  | .err => out = (.err, s)
  | .panic => out = (.panic, s)

/-- The writer together with a mark that is taken away when a call fails. -/
def Sink.watched (k : Sink) : Sink where
  State := k.State × Bool
  write := fun s p => (((k.write s.1 p).1, s.2 && (k.write s.1 p).2), (k.write s.1 p).2)
  got := fun s => k.got s.1

/-- A disk with room for so many more characters, or full. -/
def disk : Sink where
  State := Str × Option Nat
  write := fun s p => match s.2 with
    | none => (s, false)
    | some n => if p.length ≤ n then ((s.1 ++ p, some (n - p.length)), true) else ((s.1 ++ p.take n, none), false)
  got := Prod.fst

/-- A connection that loses the call with this number. -/
def flaky (n : Nat) : Sink where
  State := Str × Nat
  write := fun s p => if s.2 = n then ((s.1, s.2 + 1), false) else ((s.1 ++ p, s.2 + 1), true)
  got := Prod.fst

end Verif
