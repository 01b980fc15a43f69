import Verif.Model.Reflect
import Verif.Props.C38_C39_ReadInto

/-!
# C76: documents and pointers as arguments
-/

namespace Verif
open Spec

/-- A value behind `n` pointers. -/
def pointers : Nat → AnyVal → AnyVal
  | 0, x => x
  | n + 1, x => .ptr (pointers n x)

theorem follow_pointers (n : Nat) (x : AnyVal) : follow (pointers n x) = follow x := by
  induction n with
  | zero => rfl
  | succ n ih => exact ih

theorem type_pointers_ne (n : Nat) (v w : Version) (d : Doc) : (pointers (n + 1) (.doc v d)).type ≠ .doc w := by
  simp [pointers, AnyVal.type]

/-- **C76.** A document can be given by any number of pointers to pointers, if the target is a pointer to a document:
the target is then the converted document, whatever it was before. -/
theorem C76_convert (copy : Version → Version → Doc → Doc) (rest : Option AnyVal → AnyVal → Res AnyVal) (n : Nat) (a b : Version)
    (d old : Doc) : convertInto copy rest (some (pointers n (.doc a d))) (some (.ptr (.doc b old))) =
      .ok (.ptr (.doc b (convertSteps copy a b d))) := by
  simp only [convertInto, isPointer, Res.bind_ok, Bool.not_true, Bool.false_eq_true, if_false, fromPtr, follow_pointers, follow,
    Option.map_some, AnyVal.type, Option.some.injEq, AnyType.doc.injEq, setElem]
  by_cases h : a = b
  · subst h
    have : convertSteps copy a a d = d := by cases a <;> rfl
    simp [this]
  · simp [h, chainConvert]

/-- **C76.** The same by an argument that is not a pointer is an error, whatever the document is. -/
theorem C76_not_pointer (copy : Version → Version → Doc → Doc) (rest : Option AnyVal → AnyVal → Res AnyVal) (x : AnyVal)
    (hx : ∀ t, x.type ≠ .ptr t) (from_ : Option AnyVal) (text : Str) :
    convertInto copy rest from_ (some x) = .err ∧ readIntoVariable copy rest text (some x) = .err := by
  cases x with
  | ptr y => exact absurd rfl (hx y.type)
  | nilPtr t => exact absurd rfl (hx t)
  | doc v d => exact ⟨rfl, rfl⟩
  | other n c => exact ⟨rfl, rfl⟩
  | any x => exact ⟨rfl, rfl⟩
  | nilAny => exact ⟨rfl, rfl⟩

/-- **C76.** A nil pointer, at any depth, or nothing at all makes the conversion panic: as target, and, if the target
is a pointer, as source. -/
theorem C76_nil (copy : Version → Version → Doc → Doc) (rest : Option AnyVal → AnyVal → Res AnyVal) (n : Nat) (t : AnyType)
    (from_ : Option AnyVal) (x : AnyVal) :
    convertInto copy rest from_ none = .panic ∧
    (convertInto copy rest (some (pointers n (.nilPtr t))) (some (.ptr x)) = .panic) ∧
    (convertInto copy rest none (some (.ptr x)) = .panic) ∧
    (∀ m a d, convertInto copy rest (some (pointers m (.doc a d))) (some (pointers n (.nilPtr t))) = .panic) := by
  refine ⟨rfl, ?_, rfl, fun m a d => ?_⟩
  · simp [convertInto, isPointer, fromPtr, follow_pointers, follow]
  · have hp : isPointer (some (pointers n (.nilPtr t))) = .ok true := by cases n <;> rfl
    simp only [convertInto, hp, Res.bind_ok, Bool.not_true, Bool.false_eq_true, if_false, fromPtr, follow_pointers, follow]
    rfl

/-- **C76, a limit.** A pointer to a pointer to a document of the same version, or further pointers, makes the conversion
panic. -/
theorem C76_deep (copy : Version → Version → Doc → Doc) (rest : Option AnyVal → AnyVal → Res AnyVal) (m n : Nat) (v : Version)
    (d old : Doc) : convertInto copy rest (some (pointers m (.doc v d))) (some (pointers (n + 2) (.doc v old))) = .panic := by
  have e : pointers (n + 2) (.doc v old) = .ptr (pointers (n + 1) (.doc v old)) := rfl
  have ha : (pointers (n + 1) (.doc v old)).type ≠ .any := by simp [pointers, AnyVal.type]
  have hf : follow (.ptr (pointers (n + 1) (.doc v old))) = .ok (some (.doc v old)) := follow_pointers (n + 2) _
  rw [e]
  simp only [convertInto, isPointer, Res.bind_ok, Bool.not_true, Bool.false_eq_true, if_false, fromPtr, hf, follow_pointers]
  simp only [follow, Res.bind_ok, Option.map_some, AnyVal.type, if_true, setElem, ha, type_pointers_ne, if_false]

/-- **C76.** A variable of interface type that holds a document of the same version can be a target. -/
theorem C76_interface (copy : Version → Version → Doc → Doc) (rest : Option AnyVal → AnyVal → Res AnyVal) (n : Nat) (v : Version)
    (d old : Doc) : convertInto copy rest (some (pointers n (.doc v d))) (some (.ptr (.any (.doc v old)))) =
      .ok (.ptr (.any (.doc v d))) := by
  simp [convertInto, isPointer, fromPtr, follow_pointers, follow, AnyVal.type, setElem]

/-- **C76.** Reading into a pointer to a document is reading as in C38, whatever the document was before. -/
theorem C76_read (copy : Version → Version → Doc → Doc) (rest : Option AnyVal → AnyVal → Res AnyVal) (target : Version) (old : Doc)
    (text : Str) : readIntoVariable copy rest text (some (.ptr (.doc target old))) =
      (readTagValueInto copy true target text).bind fun d => .ok (.ptr (.doc target d)) := by
  have e0 : ∀ v : Version, convertInto copy rest (some (.nilPtr (.doc v))) (some (.ptr (.doc target old))) = .panic := fun v => rfl
  have e1 : ∀ (v : Version) (d : Doc), convertInto copy rest (some (.ptr (.doc v d))) (some (.ptr (.doc target old))) =
      .ok (.ptr (.doc target (convertSteps copy v target d))) := fun v d => C76_convert copy rest 1 v target d old
  simp only [readIntoVariable, isPointer, Res.bind_ok, Bool.not_true, Bool.false_eq_true, if_false, loadTagValue, readTagValueInto]
  cases readTagValues text with
  | err => rfl
  | panic => rfl
  | ok tvs =>
    simp only [Res.bind_ok]
    split
    · rfl
    · cases versionNamed (statedVersion tvs) with
      | none => rfl
      | some v =>
        simp only
        cases parseTagValues v tvs with
        | err => rfl
        | panic => rfl
        | ok d =>
          cases d with
          | none => exact e0 v
          | some d =>
            simp only [Res.bind_ok, Res.pure_eq, e1]
            rfl

/-- **C76, a limit.** Reading into a pointer to a pointer, or further pointers, panics if the text is a document of the
version of the variable; it never succeeds then. -/
theorem C76_read_deep (copy : Version → Version → Doc → Doc) (rest : Option AnyVal → AnyVal → Res AnyVal) (n : Nat) (target : Version)
    (old d : Doc) (text : Str) (h : loadTagValue text = .ok (target, some d)) :
    readIntoVariable copy rest text (some (pointers (n + 2) (.doc target old))) = .panic := by
  have hp : isPointer (some (pointers (n + 2) (.doc target old))) = .ok true := rfl
  simp only [readIntoVariable, hp, h, Res.bind_ok, Bool.not_true, Bool.false_eq_true, if_false]
  exact C76_deep copy rest 1 n target d old

/-- **C76.** Writing a document gives the same text by any number of pointers to pointers. -/
theorem C76_write (cap : Nat → Nat) (shown : AnyVal → Str) (so : Sorter) (n : Nat) (v : Version) (d : Doc) :
    writeVariable cap shown so (some (pointers n (.doc v d))) = writeTagValue v so d := by
  simp [writeVariable, fromPtr, follow_pointers, follow]

/-- **C76.** Anything else that is written is an error or a panic: nil pointers panic, also in variables of
interface type, as do such variables that hold nothing; values of other types are an error
if their text is short or has no wide characters. -/
theorem C76_write_other (cap : Nat → Nat) (shown : AnyVal → Str) (so : Sorter) (n : Nat) (t : AnyType) (ty c : Str) :
    writeVariable cap shown so (some (pointers n (.nilPtr t))) = .panic ∧
    writeVariable cap shown so none = .panic ∧
    writeVariable cap shown so (some (pointers n .nilAny)) = .panic ∧
    writeVariable cap shown so (some (pointers n (.any (.nilPtr t)))) = .panic ∧
    (byteLen (shown (.other ty c)) ≤ 303 ∨ 300 ≤ (shown (.other ty c)).length →
      writeVariable cap shown so (some (pointers n (.other ty c))) = .err) := by
  refine ⟨?_, rfl, ?_, ?_, fun h => ?_⟩
  · simp [writeVariable, fromPtr, follow_pointers, follow]
  · simp [writeVariable, fromPtr, follow_pointers, follow]
  · simp [writeVariable, fromPtr, follow_pointers, follow, describe]
  · have hl : ∃ s, limit cap (shown (.other ty c)) 300 = .ok s := by
      unfold limit
      split
      · exact ⟨_, rfl⟩
      · next hs =>
        have h1 : ¬ byteLen (shown (.other ty c)) ≤ 303 := by omega
        have h2 : 300 ≤ (shown (.other ty c)).length := h.resolve_left h1
        have h3 : (300 : Int).toNat ≤ max (shown (.other ty c)).length (cap (shown (.other ty c)).length) := by
          have : (300 : Int).toNat = 300 := rfl
          rw [this]; omega
        simp only [h3, if_true]
        exact ⟨_, rfl⟩
    obtain ⟨s, hs⟩ := hl
    simp [writeVariable, fromPtr, follow_pointers, follow, describe, hs]

/-- Writing a value of another type can panic instead of returning an error: a text of 152 letters `é`. -/
theorem C76_write_panics_false (so : Sorter) :
    writeVariable (fun n => n) (fun x => match x with | .other _ c => c | _ => []) so
      (some (.other g!"string" (List.replicate 152 'é'))) = .panic := by
  have h : limit (fun n => n) (List.replicate 152 'é') 300 = .panic := C39_multibyte_false
  simp only [writeVariable, fromPtr, follow, Res.bind_ok, describe, h]
  rfl

/-- A pointer to a variable of interface type that holds a pointer to a document cannot be written. -/
theorem C76_write_boxed_false (so : Sorter) :
    writeVariable (fun n => n) (fun _ => []) so (some (.ptr (.any (.ptr (.doc .v23 {}))))) = .err ∧
    writeVariable (fun n => n) (fun _ => []) so (some (.ptr (.any (.doc .v23 { creationInfo := some {} })))) =
      writeTagValue .v23 so { creationInfo := some {} } := ⟨rfl, rfl⟩

/-- A text that is read. -/
example : loadTagValue g!"SPDXVersion: SPDX-2.3\nDocumentName: a\n" =
    .ok (.v23, some { spdxVersion := g!"SPDX-2.3", name := g!"a" }) := by
  decide +kernel

end Verif
