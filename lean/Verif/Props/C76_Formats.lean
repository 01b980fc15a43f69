import Verif.Model.ReflectFormats
import Verif.Props.C76_AnyDocument
import Verif.Props.C60_Yaml

/-!
# C76: documents and pointers as arguments, for JSON, YAML and RDF
-/

namespace Verif
open Spec

theorem readJsonInto_load (so : Sorter) (copy : Version → Version → Doc → Doc) (target : Version) (j : Json) :
    readJsonInto so copy true target j = (loadJson so j).bind fun x => .ok (convertSteps copy x.1 target x.2) := by
  unfold readJsonInto loadJson
  cases j with
  | obj es =>
    simp only [Bool.not_true, Bool.false_eq_true, if_false]
    cases lastEntry g!"spdxVersion" es with
    | none => rfl
    | some x =>
      cases x with
      | str raw =>
        simp only
        cases (unescape raw).bind versionNamed with
        | none => rfl
        | some v =>
          simp only
          cases decodeDoc so v (.obj es) <;> rfl
      | _ => rfl
  | _ => rfl

theorem readJsonText_load (so : Sorter) (copy : Version → Version → Doc → Doc) (float : Str → Bool) (odd : Str → Res (Version × Doc))
    (target : Version) (s : Str) :
    readJsonText so copy float (fun s => (odd s).bind fun x => .ok (convertSteps copy x.1 target x.2)) true target s =
      (loadJsonText so float odd s).bind fun x => .ok (convertSteps copy x.1 target x.2) := by
  unfold readJsonText loadJsonText
  simp only [Bool.not_true, Bool.false_eq_true, if_false]
  cases scanJson s with
  | none => rfl
  | some j =>
    simp only
    split
    · rfl
    · split
      · exact readJsonInto_load so copy target j
      · rfl

theorem readYamlText_load (y : Yaml) (so : Sorter) (copy : Version → Version → Doc → Doc) (target : Version) (s : Str) :
    readYamlText y so copy true target s = (loadYamlText y so s).bind fun x => .ok (convertSteps copy x.1 target x.2) := by
  unfold readYamlText loadYamlText
  simp only [Bool.not_true, Bool.false_eq_true, if_false]
  cases y.parse none s with
  | none => rfl
  | some j =>
    cases j with
    | obj es =>
      simp only
      cases lastEntry g!"spdxVersion" es with
      | none => rfl
      | some x =>
        cases x with
        | str raw =>
          simp only
          cases (unescape raw).bind versionNamed with
          | none => rfl
          | some v =>
            simp only
            cases Res.ofOption (y.parse (some v) s) with
            | err => rfl
            | panic => rfl
            | ok j =>
              simp only [Res.bind_ok]
              cases decodeDoc so v j <;> rfl
        | _ => rfl
    | _ => rfl

theorem readRdfInto_load (copy : Version → Version → Doc → Doc) (o : MapOrder) (target : Version) (input : Option Graph) :
    readRdfInto copy true o target input = match loadRdf o input with
      | .ok x => .ok (convertSteps copy x.1 target x.2)
      | .err => .err
      | .panic => .panic
      | .cut => .cut := by
  have h : ∀ v g, readRdfInto.readAs copy true o target v g = match loadRdf.readAs o v g with
      | .ok x => .ok (convertSteps copy x.1 target x.2)
      | .err => .err
      | .panic => .panic
      | .cut => .cut := by
    intro v g
    unfold readRdfInto.readAs loadRdf.readAs
    cases loadGraph v o g <;> rfl
  unfold readRdfInto loadRdf
  simp only [Bool.not_true, Bool.false_eq_true, if_false]
  cases input with
  | none => rfl
  | some g =>
    simp only
    cases graphVersion g with
    | none => rfl
    | some x =>
      simp only
      split
      · exact h _ _
      · split
        · exact h _ _
        · rfl

theorem loadInto_doc (copy : Version → Version → Doc → Doc) (rest : Option AnyVal → AnyVal → Res AnyVal) (loaded : Res (Version × Doc))
    (target : Version) (old : Doc) :
    loadIntoVariable copy rest loaded (some (.ptr (.doc target old))) =
      loaded.bind fun x => .ok (.ptr (.doc target (convertSteps copy x.1 target x.2))) := by
  cases loaded with
  | err => rfl
  | panic => rfl
  | ok x => exact C76_convert copy rest 0 x.1 target x.2 old

/-- **C76.** Reading JSON into a pointer to a document is reading as in C58, whatever the document was before. -/
theorem C76_read_json (so : Sorter) (copy : Version → Version → Doc → Doc) (rest : Option AnyVal → AnyVal → Res AnyVal)
    (float : Str → Bool) (odd : Str → Res (Version × Doc)) (target : Version) (old : Doc) (text : Str) :
    loadIntoVariable copy rest (loadJsonText so float odd text) (some (.ptr (.doc target old))) =
      (readJsonText so copy float (fun s => (odd s).bind fun x => .ok (convertSteps copy x.1 target x.2)) true target text).bind
        fun d => .ok (.ptr (.doc target d)) := by
  rw [loadInto_doc, readJsonText_load]
  cases loadJsonText so float odd text <;> rfl

/-- **C76.** Reading YAML into a pointer to a document is reading as in C60, whatever the document was before. -/
theorem C76_read_yaml (y : Yaml) (so : Sorter) (copy : Version → Version → Doc → Doc) (rest : Option AnyVal → AnyVal → Res AnyVal)
    (target : Version) (old : Doc) (text : Str) :
    loadIntoVariable copy rest (loadYamlText y so text) (some (.ptr (.doc target old))) =
      (readYamlText y so copy true target text).bind fun d => .ok (.ptr (.doc target d)) := by
  rw [loadInto_doc, readYamlText_load]
  cases loadYamlText y so text <;> rfl

/-- **C76.** Reading RDF into a pointer to a document is reading as in C54, whatever the document was before. -/
theorem C76_read_rdf (copy : Version → Version → Doc → Doc) (rest : Option AnyVal → AnyVal → Res AnyVal) (o : MapOrder)
    (input : Option Graph) (target : Version) (old : Doc) :
    readRdfVariable copy rest o input (some (.ptr (.doc target old))) = match readRdfInto copy true o target input with
      | .ok d => .ok (.ptr (.doc target d))
      | .err => .err
      | .panic => .panic
      | .cut => .cut := by
  rw [readRdfInto_load]
  simp only [readRdfVariable, isPointer, Bool.not_true, Bool.false_eq_true, if_false]
  cases loadRdf o input with
  | err => rfl
  | panic => rfl
  | cut => rfl
  | ok x =>
    have h : convertInto copy rest (some (.ptr (.doc x.1 x.2))) (some (.ptr (.doc target old))) =
        .ok (.ptr (.doc target (convertSteps copy x.1 target x.2))) := C76_convert copy rest 1 x.1 target x.2 old
    simp only [h]
    rfl

/-- **C76.** An argument that is not a pointer is an error in every format, whatever is read. -/
theorem C76_formats_not_pointer (copy : Version → Version → Doc → Doc) (rest : Option AnyVal → AnyVal → Res AnyVal) (x : AnyVal)
    (hx : ∀ t, x.type ≠ .ptr t) (loaded : Res (Version × Doc)) (o : MapOrder) (input : Option Graph) :
    loadIntoVariable copy rest loaded (some x) = .err ∧ readRdfVariable copy rest o input (some x) = .err := by
  cases x with
  | ptr y => exact absurd rfl (hx y.type)
  | nilPtr t => exact absurd rfl (hx t)
  | doc v d => exact ⟨rfl, rfl⟩
  | other n c => exact ⟨rfl, rfl⟩
  | any x => exact ⟨rfl, rfl⟩
  | nilAny => exact ⟨rfl, rfl⟩

/-- **C76, a limit.** Reading into a pointer to a pointer, or further pointers, panics if the input is a document of the version of
the variable; and reading any document into a nil pointer, behind any number of pointers, panics. -/
theorem C76_formats_deep (copy : Version → Version → Doc → Doc) (rest : Option AnyVal → AnyVal → Res AnyVal) (n : Nat) (v : Version)
    (d : Doc) :
    (∀ old, loadIntoVariable copy rest (.ok (v, d)) (some (pointers (n + 2) (.doc v old))) = .panic) ∧
    (∀ t, loadIntoVariable copy rest (.ok (v, d)) (some (pointers n (.nilPtr t))) = .panic) ∧
    ∀ o input, loadRdf o input = .ok (v, d) →
      (∀ old, readRdfVariable copy rest o input (some (pointers (n + 2) (.doc v old))) = .panic) ∧
      ∀ t, readRdfVariable copy rest o input (some (pointers n (.nilPtr t))) = .panic := by
  have hp : ∀ old, isPointer (some (pointers (n + 2) (.doc v old))) = .ok true := fun _ => rfl
  have hq : ∀ t, isPointer (some (pointers n (.nilPtr t))) = .ok true := fun t => by cases n <;> rfl
  have hn : ∀ m t, convertInto copy rest (some (pointers m (.doc v d))) (some (pointers n (.nilPtr t))) = .panic := fun m t =>
    (C76_nil copy rest n t none (.doc v d)).2.2.2 m v d
  refine ⟨fun old => ?_, fun t => ?_, fun o input h => ⟨fun old => ?_, fun t => ?_⟩⟩
  · simp only [loadIntoVariable, hp, Res.bind_ok, Bool.not_true, Bool.false_eq_true, if_false]
    exact C76_deep copy rest 0 n v d old
  · simp only [loadIntoVariable, hq, Res.bind_ok, Bool.not_true, Bool.false_eq_true, if_false]
    exact hn 0 t
  · have hc : convertInto copy rest (some (.ptr (.doc v d))) (some (pointers (n + 2) (.doc v old))) = .panic :=
      C76_deep copy rest 1 n v d old
    simp only [readRdfVariable, hp, h, Bool.not_true, Bool.false_eq_true, if_false, hc]
    rfl
  · have hc : convertInto copy rest (some (.ptr (.doc v d))) (some (pointers n (.nilPtr t))) = .panic := hn 1 t
    simp only [readRdfVariable, hq, h, Bool.not_true, Bool.false_eq_true, if_false, hc]
    rfl

/-- **C76.** A variable of interface type that holds a document of the version that is read can be read into: it holds the new
document afterwards. -/
theorem C76_formats_interface (copy : Version → Version → Doc → Doc) (rest : Option AnyVal → AnyVal → Res AnyVal) (v : Version)
    (d old : Doc) : loadIntoVariable copy rest (.ok (v, d)) (some (.ptr (.any (.doc v old)))) = .ok (.ptr (.any (.doc v d))) :=
  C76_interface copy rest 0 v d old

/-- A document, behind pointers and variables of interface type in any order. -/
inductive Leads (v : Version) (d : Doc) : AnyVal → Prop
  | doc : Leads v d (.doc v d)
  | ptr {x : AnyVal} (h : Leads v d x) : Leads v d (.ptr x)
  | any {x : AnyVal} (h : Leads v d x) : Leads v d (.any x)

/-- Nothing, behind pointers and variables of interface type in any order. -/
inductive LeadsNowhere : AnyVal → Prop
  | nilPtr (t : AnyType) : LeadsNowhere (.nilPtr t)
  | nilAny : LeadsNowhere .nilAny
  | ptr {x : AnyVal} (h : LeadsNowhere x) : LeadsNowhere (.ptr x)
  | any {x : AnyVal} (h : LeadsNowhere x) : LeadsNowhere (.any x)

/-- **C76.** Writing a document as JSON or YAML gives the same text by any pointers and variables of interface type that lead to
it. -/
theorem C76_write_formats (y : Yaml) (so : Sorter) (html : Bool) (indent : Str) (other : Str → Str → Res Json) (v : Version) (d : Doc)
    (x : AnyVal) (h : Leads v d x) :
    writeJsonVariable so html indent other (some x) = writeJsonText so v html indent d ∧
    writeYamlVariable y so other (some x) = writeYamlText y so v d := by
  have e : ∀ html, encodeAny so html other x = writeJson so v html d := by
    intro html
    induction h with
    | doc => rfl
    | ptr _ ih => exact ih
    | any _ ih => exact ih
  simp only [writeJsonVariable, writeYamlVariable, e]
  exact ⟨rfl, rfl⟩

/-- **C76, a limit.** Where writing tag-value panics, writing JSON succeeds: nil, behind any pointers and variables of
interface type, is written as `null`, which cannot be read. -/
theorem C76_write_nothing (so : Sorter) (html : Bool) (indent : Str) (other : Str → Str → Res Json) (x : Option AnyVal)
    (h : ∀ y, x = some y → LeadsNowhere y) :
    writeJsonVariable so html indent other x = .ok g!"null\n" ∧
    ∀ so copy float odd target, readJsonText so copy float odd true target g!"null\n" = .err := by
  have null : (do
      let j ← (.ok .null : Res Json)
      .ok ((if indent = [] then j.text else j.indented indent 0) ++ g!"\n") : Res Str) = .ok g!"null\n" := by
    simp only [Res.bind_ok]
    by_cases hi : indent = []
    · rw [if_pos hi]; rfl
    · rw [if_neg hi]; rfl
  refine ⟨?_, fun so copy float odd target => rfl⟩
  cases x with
  | none => exact null
  | some x =>
    have e : encodeAny so html other x = .ok .null := by
      have hx := h x rfl
      clear h
      induction hx with
      | nilPtr => rfl
      | nilAny => rfl
      | ptr _ ih => exact ih
      | any _ ih => exact ih
    simp only [writeJsonVariable, e]
    exact null

/-- A pointer to a variable of interface type that holds a pointer to a document: tag-value cannot be written
(`C76_write_boxed_false`), JSON can. -/
example : Leads .v23 {} (.ptr (.any (.ptr (.doc .v23 {})))) := .ptr (.any (.ptr .doc))

/-- A text that is read, so that `C76_formats_deep` applies to it. -/
theorem C76_formats_sample : loadJsonText insertionSorter (fun _ => true) (fun _ => .err)
    g!"{\"spdxVersion\": \"SPDX-2.3\", \"SPDXID\": \"SPDXRef-DOCUMENT\", \"name\": \"a\"}" =
      .ok (.v23, { spdxVersion := g!"SPDX-2.3", spdxId := g!"DOCUMENT", name := g!"a" }) := by
  decide +kernel

end Verif
