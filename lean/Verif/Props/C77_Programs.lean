import Verif.Lemmas.Programs
import Verif.Props.C65_Transfer

/-!
# C77: converting files, with failures and crashes at any point

A run is the list of its moments; a run that is killed stops at one of them.
-/

namespace Verif
open Spec

variable {c : Conversion} {w : Surroundings} {prog fileIn fileOut : Str} {m : Mishaps} {fs : FileSystem}

theorem run_cases (c : Conversion) (w : Surroundings) (prog fileIn fileOut : Str) (m : Mishaps) (fs : FileSystem) (hm : m.Faithful) :
    (∃ n, (n = .cannotOpen fileIn ∨ n = .cannotParse fileIn ∨ n = .panicked) ∧ (∀ d, ¬Loads c w fileIn m fs d) ∧
      c.run w [prog, fileIn, fileOut] m fs = [⟨fs, []⟩, ⟨fs, [n]⟩]) ∨
    (∃ d, Loads c w fileIn m fs d ∧ c.run w [prog, fileIn, fileOut] m fs =
      ⟨fs, []⟩ :: ⟨fs, [.loaded fileIn]⟩ :: savePart (c.output w d) fileOut m ⟨fs, [.loaded fileIn]⟩) := by
  rw [run_eq]
  cases ho : m.openFails with
  | true =>
    refine .inl ⟨_, .inl rfl, fun d h => ?_, by simp [conversionProgram, ho, Moment.say]⟩
    rw [h.opens] at ho; cases ho
  | false =>
    cases hf : fs fileIn with
    | none =>
      refine .inl ⟨_, .inl rfl, fun d h => ?_, by simp [conversionProgram, ho, hf, Moment.say]⟩
      obtain ⟨x, hx, -⟩ := h.exists_
      rw [hf] at hx; cases hx
    | some x =>
      cases hd : (m.deliver x).fails with
      | true =>
        refine .inl ⟨_, .inr (.inl rfl), fun d h => ?_, by simp [conversionProgram, ho, hf, source_fails c w _ hd, Moment.say]⟩
        obtain ⟨x', hx, hd', -⟩ := h.exists_
        rw [hf] at hx; cases hx
        rw [hd] at hd'; cases hd'
      | false =>
        have hs := source_ok c w _ hd
        rw [hm x hd] at hs
        have no : ∀ r, c.reads w x = r → (∀ d, r ≠ .ok d) → ∀ d, ¬Loads c w fileIn m fs d := by
          intro r hr hn d h
          obtain ⟨x', hx, -, hd'⟩ := h.exists_
          rw [hf] at hx; cases hx
          exact hn d (hr ▸ hd')
        cases hr : c.reads w x with
        | err =>
          rw [hr] at hs
          exact .inl ⟨_, .inr (.inl rfl), no _ hr (by simp), by simp [conversionProgram, ho, hf, hs, Moment.say]⟩
        | panic =>
          rw [hr] at hs
          exact .inl ⟨_, .inr (.inr rfl), no _ hr (by simp), by simp [conversionProgram, ho, hf, hs, Moment.say]⟩
        | ok d =>
          rw [hr] at hs
          exact .inr ⟨d, ⟨ho, x, hf, hd, hr⟩, by simp [conversionProgram, ho, hf, hs, Moment.say]⟩

theorem loads_unique {d d' : Doc} (h : Loads c w fileIn m fs d) (h' : Loads c w fileIn m fs d') : d = d' := by
  obtain ⟨-, x, h1, -, h2⟩ := h
  obtain ⟨-, x', h1', -, h2'⟩ := h'
  rw [h1] at h1'; cases h1'
  rw [h2] at h2'; cases h2'
  rfl

theorem run_loaded {d : Doc} (hm : m.Faithful) (hl : Loads c w fileIn m fs d) : c.run w [prog, fileIn, fileOut] m fs =
    ⟨fs, []⟩ :: ⟨fs, [.loaded fileIn]⟩ :: savePart (c.output w d) fileOut m ⟨fs, [.loaded fileIn]⟩ := by
  rcases run_cases c w prog fileIn fileOut m fs hm with ⟨n, -, h, -⟩ | ⟨d', h, e⟩
  · exact absurd hl (h d)
  · rw [loads_unique hl h]; exact e

/-- The moments of the second half. -/
theorem savePart_mem {o : Output} {s : Moment} {x : Moment} (h : x ∈ savePart o fileOut m s) :
    (m.createFails = true ∧ x = s.say (.cannotCreate fileOut)) ∨
    (m.createFails = false ∧ ∃ t, (t = [] ∨ t = (writing m.takes o.heeds 0 [] o.calls).2.1 ∨
      t ∈ (writing m.takes o.heeds 0 [] o.calls).1) ∧ x.files = s.files.put fileOut t) := by
  unfold savePart at h
  cases hc : m.createFails with
  | true => simp [hc] at h; exact .inl ⟨rfl, h⟩
  | false =>
    simp only [hc, Bool.false_eq_true, if_false, List.mem_cons, List.mem_append, List.mem_map, List.cons_append,
      List.not_mem_nil, or_false] at h
    refine .inr ⟨rfl, ?_⟩
    rcases h with rfl | ⟨t, ht, rfl⟩ | rfl
    · exact ⟨_, .inl rfl, rfl⟩
    · exact ⟨t, .inr (.inr ht), rfl⟩
    · exact ⟨_, .inr (.inl rfl), rfl⟩

theorem put_other {name t : Str} (h : name ≠ fileOut) : fs.put fileOut t name = fs name := by
  simp [FileSystem.put, h]

theorem put_same {t : Str} : fs.put fileOut t fileOut = some t := by
  simp [FileSystem.put]

/-- **C77.** With a wrong number of arguments nothing is done. -/
theorem C77_usage (c : Conversion) (w : Surroundings) (args : List Str) (m : Mishaps) (fs : FileSystem) (h : args.length ≠ 3) :
    ∀ x ∈ c.run w args m fs, x.files = fs ∧ (x.said = [] ∨ x.said = [.usage]) := by
  rw [run_eq]
  unfold conversionProgram
  split
  · simp at h
  · simp [Moment.say]

/-- **C77.** No file but the output file is ever changed, whatever goes wrong. -/
theorem C77_nothing_else (hm : m.Faithful) :
    ∀ x ∈ c.run w [prog, fileIn, fileOut] m fs, ∀ name, name ≠ fileOut → x.files name = fs name := by
  intro x hx name hn
  rcases run_cases c w prog fileIn fileOut m fs hm with ⟨n, -, -, e⟩ | ⟨d, -, e⟩
  · rw [e] at hx
    simp only [List.mem_cons, List.not_mem_nil, or_false] at hx
    rcases hx with rfl | rfl <;> rfl
  · rw [e] at hx
    rcases List.mem_cons.1 hx with rfl | hx
    · rfl
    rcases List.mem_cons.1 hx with rfl | hx
    · rfl
    rcases savePart_mem hx with ⟨-, rfl⟩ | ⟨-, t, -, hf⟩
    · rfl
    · rw [hf]; exact put_other hn

/-- **C77.** If the input file is not read as a document, the output file is not touched either, and nothing is said to
be loaded or saved. -/
theorem C77_unread (hm : m.Faithful) (h : ∀ d, ¬Loads c w fileIn m fs d) :
    ∀ x ∈ c.run w [prog, fileIn, fileOut] m fs, x.files = fs ∧ ∀ n ∈ x.said, n = .cannotOpen fileIn ∨ n = .cannotParse fileIn ∨ n = .panicked := by
  rcases run_cases c w prog fileIn fileOut m fs hm with ⟨n, hn, -, e⟩ | ⟨d, hd, -⟩
  · rw [e]
    intro x hx
    simp only [List.mem_cons, List.not_mem_nil, or_false] at hx
    rcases hx with rfl | rfl
    · simp
    · simpa using hn
  · exact absurd hd (h d)

/-- **C77.** At every moment the output file is as it was before, or holds a beginning of the text of the document.
For tag-value this needs that nothing is taken after a failure.  A document that cannot be written leaves the output
file empty. -/
theorem C77_output {d : Doc} (hm : m.Faithful) (hl : Loads c w fileIn m fs d) (hf : c.Checked ∨ m.Final) :
    ∀ x ∈ c.run w [prog, fileIn, fileOut] m fs, x.files fileOut = fs fileOut ∨
      ∃ q, x.files fileOut = some q ∧ match c.writes w d with
        | .ok text => q <+: text
        | _ => q = [] := by
  rw [run_loaded hm hl]
  intro x hx
  rcases List.mem_cons.1 hx with rfl | hx
  · exact .inl rfl
  rcases List.mem_cons.1 hx with rfl | hx
  · exact .inl rfl
  rcases savePart_mem hx with ⟨-, rfl⟩ | ⟨-, t, ht, hfl⟩
  · exact .inl rfl
  right
  refine ⟨t, by rw [hfl]; exact put_same, ?_⟩
  have hp := writing_prefix (heeds := (c.output w d).heeds) (hf.imp (output_heeds c w d).2 id) 0 [] (c.output w d).calls
  have ht' : ∃ r, r <+: (c.output w d).calls.flatten ∧ t = r := by
    rcases ht with rfl | rfl | ht
    · exact ⟨[], List.nil_prefix, rfl⟩
    · exact hp _ (by simp)
    · exact hp _ (by simp [ht])
  obtain ⟨r, hr, rfl⟩ := ht'
  have ho := output_text c w d
  split
  · next text he => rw [he] at ho; rw [← ho.1]; exact hr
  · next he =>
    have : (c.output w d).calls = [] := by
      revert ho
      cases hw : c.writes w d with
      | ok t => exact absurd hw (he t)
      | err => exact fun h => h.1
      | panic => exact fun h => h.1
    rw [this] at hr
    simpa using hr

theorem last_run {d : Doc} (hm : m.Faithful) (hl : Loads c w fileIn m fs d) (hc : m.createFails = false) {text : Str}
    (hw : c.writes w d = .ok text) : ∃ t b, (c.run w [prog, fileIn, fileOut] m fs).getLast? = some
      ⟨fs.put fileOut t, [.loaded fileIn, if b then .saved fileOut else .cannotSave fileOut]⟩ ∧
      (t, b) = (writing m.takes (c.output w d).heeds 0 [] (c.output w d).calls).2 := by
  have ho := output_text c w d
  rw [hw] at ho
  refine ⟨_, _, ?_, rfl⟩
  rw [run_loaded hm hl]
  unfold savePart
  simp only [hc, Bool.false_eq_true, if_false, ho.2]
  rw [← List.cons_append, ← List.cons_append, List.getLast?_append]
  simp [Moment.say, Moment.put]

/-- **C77.** If nothing goes wrong, the document is saved: the output file, which may be the input file, holds its text,
and all other files are as before. -/
theorem C77_works {d : Doc} {text : Str} (hm : m.Faithful) (ha : m.Absent) (hl : Loads c w fileIn m fs d)
    (hw : c.writes w d = .ok text) : ∃ x, (c.run w [prog, fileIn, fileOut] m fs).getLast? = some x ∧
      x.files = fs.put fileOut text ∧ x.said = [.loaded fileIn, .saved fileOut] := by
  obtain ⟨t, b, h1, h2⟩ := last_run (prog := prog) (fileOut := fileOut) hm hl ha.creates hw
  have ho := output_text c w d
  rw [hw] at ho
  rw [writing_takes_all ha.takes, ho.1] at h2
  cases h2
  exact ⟨_, h1, rfl, rfl⟩

/-- The moments of the second half, when nothing goes wrong: every beginning of the text is there for a moment. -/
theorem savePart_complete {o : Output} {s : Moment} {q : Str} (hc : m.createFails = false) (ht : m.TakesAll)
    (hq : q <+: o.calls.flatten) : ∃ x ∈ savePart o fileOut m s, x.files = s.files.put fileOut q := by
  unfold savePart
  simp only [hc, Bool.false_eq_true, if_false, List.mem_append, List.mem_cons, List.cons_append, List.mem_map]
  by_cases hne : q = []
  · subst hne
    exact ⟨_, .inl rfl, rfl⟩
  · exact ⟨_, .inr (.inl ⟨q, by simpa using writing_complete ht o.heeds o.calls 0 [] q hq hne, rfl⟩), rfl⟩

/-- **C77.** Saving takes many moments: if nothing goes wrong, every beginning of the text is what the output file holds at
some moment, and so what a program leaves behind that is killed then. -/
theorem C77_any_beginning {d : Doc} {text q : Str} (hm : m.Faithful) (ha : m.Absent) (hl : Loads c w fileIn m fs d)
    (hw : c.writes w d = .ok text) (hq : q <+: text) :
    ∃ x ∈ c.run w [prog, fileIn, fileOut] m fs, x.files = fs.put fileOut q := by
  have ho := output_text c w d
  rw [hw] at ho
  obtain ⟨x, h1, h2⟩ := savePart_complete (o := c.output w d) (fileOut := fileOut) (s := ⟨fs, [.loaded fileIn]⟩) ha.creates ha.takes
    (by rw [ho.1]; exact hq)
  exact ⟨x, by rw [run_loaded hm hl]; simp [h1], h2⟩

/-- **C77.** JSON and YAML: if the program says that the document is saved, its whole text is in the output file.  For
tag-value this is so only if every call of `Write` succeeded. -/
theorem C77_saved {d : Doc} {text : Str} (hm : m.Faithful) (hl : Loads c w fileIn m fs d) (hw : c.writes w d = .ok text)
    (hs : c.Checked ∨ m.TakesAll) : ∀ x ∈ c.run w [prog, fileIn, fileOut] m fs, .saved fileOut ∈ x.said →
      x.files fileOut = some text := by
  intro x hx hsaid
  have ho := output_text c w d
  rw [hw] at ho
  rw [run_loaded hm hl] at hx
  rcases List.mem_cons.1 hx with rfl | hx
  · simp at hsaid
  rcases List.mem_cons.1 hx with rfl | hx
  · simp at hsaid
  unfold savePart at hx
  cases hc : m.createFails with
  | true => simp only [hc, if_true, List.mem_singleton] at hx; subst hx; simp [Moment.say] at hsaid
  | false =>
    simp only [hc, Bool.false_eq_true, if_false, List.mem_cons, List.mem_append, List.mem_map, List.cons_append,
      List.not_mem_nil, or_false, ho.2] at hx
    rcases hx with rfl | ⟨t, -, rfl⟩ | rfl
    · simp [Moment.put] at hsaid
    · simp [Moment.put] at hsaid
    · simp only [Moment.say, Moment.put, List.mem_append, List.mem_singleton] at hsaid ⊢
      have hfine : (writing m.takes (c.output w d).heeds 0 [] (c.output w d).calls).2.2 = true := by
        rcases hsaid with h | h
        · cases h
        · split at h
          · assumption
          · cases h
      rw [put_same]
      rcases hs with hs | hs
      · have hk := (output_heeds c w d).2 hs
        rw [hk] at hfine ⊢
        have : ∃ t, (c.output w d).calls = [t] := by
          cases c with
          | tvToJson => exact ⟨text, by
              show (textOutput (writeJsonText w.so .v23 true [] d)).calls = _
              rw [show writeJsonText w.so .v23 true [] d = .ok text from hw]; rfl⟩
          | tvToYaml => exact ⟨text, by
              show (textOutput (writeYamlText w.y w.so .v23 d)).calls = _
              rw [show writeYamlText w.y w.so .v23 d = .ok text from hw]; rfl⟩
          | loadSave => exact absurd rfl hs
          | jsonToTv => exact absurd rfl hs
          | yamlToTv => exact absurd rfl hs
        obtain ⟨t, ht⟩ := this
        have e := ho.1
        rw [ht] at e hfine ⊢
        simp only [List.flatten_cons, List.flatten_nil, List.append_nil] at e
        subst e
        cases hn : m.takes 0 with
        | none => simp [writing, hn, arriving]
        | some k => simp [writing, hn, arriving] at hfine
      · have e := writing_takes_all hs (c.output w d).heeds 0 [] (c.output w d).calls
        rw [ho.1] at e
        exact congrArg some (congrArg Prod.fst e)

/-! ## Cut off texts -/

theorem writeJson_object {so : Sorter} {v : Version} {html : Bool} {d : Doc} {j : Json} (h : writeJson so v html d = .ok j) :
    ∃ es, j = .obj es := by
  unfold writeJson at h
  obtain ⟨j', h1, h2⟩ := bind_eq_ok.1 h
  obtain ⟨es, -, h3⟩ := bind_eq_ok.1 h1
  cases h3
  cases h2
  cases html
  · exact ⟨_, rfl⟩
  · exact ⟨_, rfl⟩

/-- **C77.** A JSON text that is cut off at any point is an error for the reader, or is read as the whole text is (only
white space is missing). -/
theorem C77_json_cut (so so' : Sorter) (copy : Version → Version → Doc → Doc) (float : Str → Bool) (odd : Str → Res Doc) (v target : Version)
    (html : Bool) (indent : Str) (hi : Blank indent) (d : Doc) (text q : Str) (hw : writeJsonText so v html indent d = .ok text)
    (hq : q <+: text) : readJsonText so' copy float odd true target q = .err ∨
      readJsonText so' copy float odd true target q = readJsonText so' copy float odd true target text := by
  obtain ⟨j, hj, ht⟩ := (C58_written so v html indent hi d).1 text hw
  obtain ⟨es, rfl⟩ := writeJson_object hj
  have fine := writeJson_fine (float := fun _ => true) (fun s _ r _ => ⟨⟨rfl, rfl⟩, ⟨rfl, rfl⟩⟩) hj
  obtain ⟨r, rfl⟩ := hq
  cases hs : scanJson q with
  | none => left; simp [readJsonText, hs]
  | some j' =>
    right
    have hj' := scanJson_iff.1 hs
    obtain ⟨-, rfl⟩ := cut_object ht hj'
    exact C58_layout so' copy float odd target q (q ++ r) _ fine.plain hj' ht

/-- **C77.** From tag-value to JSON: at whatever moment the program is killed, and whatever goes wrong, the output file is
as it was before, or cannot be read, or is read as the whole text of the document would be: never as another document. -/
theorem C77_json_never_wrong {d : Doc} {text : Str} (hm : m.Faithful) (hl : Loads .tvToJson w fileIn m fs d)
    (hw : writeJsonText w.so .v23 true [] d = .ok text) :
    ∀ x ∈ Conversion.run .tvToJson w [prog, fileIn, fileOut] m fs, x.files fileOut = fs fileOut ∨
      ∃ q, x.files fileOut = some q ∧ (readKind w .json q = .err ∨ readKind w .json q = readKind w .json text) := by
  intro x hx
  refine (C77_output hm hl (.inl (by intro h; cases h)) x hx).imp id ?_
  rintro ⟨q, h1, h2⟩
  rw [show Conversion.writes .tvToJson w d = .ok text from hw] at h2
  exact ⟨q, h1, C77_json_cut w.so w.so w.copy w.float w.odd .v23 .v23 true [] (by simp [Blank]) d text q hw h2⟩

/-! ## One program after another -/

/-- The format as one of those of C65. -/
def Spec.FileKind.format : FileKind → Format
  | .tagValue => .tagValue
  | .json => .json true []
  | .yaml => .yaml

theorem passOn_kind (w : Surroundings) (e : Doc) (k : FileKind) : passOn w .v23 e k.format = (writeKind w k e >>= readKind w k) := by
  cases k <;> rfl

/-- **C77.** If nothing goes wrong, a document that all formats can carry arrives through any number of programs, each of
which takes the output of the one before: the last file is read as the same document. -/
theorem C77_chain (w : Surroundings) (hf : ∀ n, IsInt64 n → w.float (itoa n) = true) (d : Doc) (hd : Portable .v23 d)
    (hy : ∀ e j, writeJson w.so .v23 true e = .ok j → YamlKeeps w.y j) (jobs : List Job) (k k' : FileKind) (file file' : Str)
    (hc : JobChain k file jobs k' file') (hj : ∀ j ∈ jobs, j.mishaps.Faithful ∧ j.mishaps.Absent) (fs : FileSystem) (content : Str)
    (h1 : fs file = some content) (h2 : readKind w k content = .ok d) :
    ∃ content' e, afterAll w jobs fs file' = some content' ∧ readKind w k' content' = .ok e ∧ SameDoc d e := by
  have key : ∀ (fs : FileSystem) (content : Str) (e : Doc), fs file = some content → readKind w k content = .ok e → SameDoc d e →
      ∃ content' e', afterAll w jobs fs file' = some content' ∧ readKind w k' content' = .ok e' ∧ SameDoc d e' := by
    clear h1 h2 content fs
    induction hc with
    | nil => intro fs content e h1 h2 h3; exact ⟨content, e, h1, h2, h3⟩
    | @cons j js k k' file file' hk hfile hc ih =>
      subst hk hfile
      intro fs content e h1 h2 h3
      obtain ⟨hm, ha⟩ := hj j (by simp)
      obtain ⟨e', g1, g2⟩ := pass_step w hf hd hy h3 j.program.target.format (by
        intro html indent h
        cases hk : j.program.target with
        | tagValue => rw [hk] at h; cases h
        | json => rw [hk] at h; cases h; simp [Blank]
        | yaml => rw [hk] at h; cases h)
      rw [passOn_kind] at g1
      obtain ⟨text, g3, g4⟩ := bind_eq_ok.1 g1
      obtain ⟨x, g5, g6, -⟩ := C77_works (prog := j.name) (fileOut := j.fileOut) hm ha
        ⟨ha.opens, content, h1, ha.delivers _, h2⟩ g3
      refine ih (fun i hi => hj i (by simp [hi])) (j.after w fs) text e' ?_ g4 g2
      unfold Job.after
      rw [g5]
      show x.files _ = _
      rw [g6]
      exact put_same
  exact key fs content d h1 h2 (sameDoc_refl d)

/-! ## Samples -/

/-- The document of C65, in version 2.3. -/
def doc77 : Doc := { doc65 with spdxVersion := g!"SPDX-2.3" }

theorem doc77_representable : Representable .v23 doc77 where
  spdxVersion := by decide
  dataLicense := by decide
  spdxId := by decide
  name := by decide
  namespace_ := by decide +kernel
  externalDocumentRefs := by
    intro e he
    simp only [doc77, doc65, List.mem_cons, List.not_mem_nil, or_false] at he
    subst he
    exact ⟨by decide, by decide, by decide, by decide⟩
  comment := by decide
  creationInfo := ⟨_, rfl, by decide, by decide, by decide, by decide, by decide⟩
  packages := by
    intro p hp
    simp only [doc77, doc65, List.mem_cons, List.not_mem_nil, or_false] at hp
    rcases hp with rfl | rfl
    · constructor <;> first | decide | rfl | (intro x hx; exact absurd hx (by simp))
    · constructor <;> first
        | decide +kernel
        | rfl
        | skip
      · intro c hc
        simp only [Option.mem_some_iff] at hc
        subst hc
        exact ⟨rfl, by decide +kernel, by decide +kernel, .inr ⟨_, rfl, by decide, by decide⟩⟩
      · intro r hr
        simp only [List.mem_cons, List.not_mem_nil, or_false] at hr
        subst hr
        exact ⟨by decide, by decide, by decide, by decide⟩
      · intro f hf
        simp only [List.mem_cons, List.not_mem_nil, or_false] at hf
        subst hf
        constructor <;> first | decide | rfl | (intro x hx; exact absurd hx (by simp))
  files := by simp [doc77, doc65]
  otherLicenses := by simp [doc77, doc65]
  relationships := by
    intro r hr
    simp only [doc77, doc65, List.mem_cons, List.not_mem_nil, or_false] at hr
    subst hr
    exact ⟨by decide, .inl (by decide), by decide, by decide⟩
  annotations := by simp [doc77, doc65]
  noSnippets := rfl
  reviews := by simp [doc77, doc65]

theorem doc77_json : JsonDocument true doc77 := by
  refine ⟨jsonId_of (by decide) (by decide), ?_, ?_, ?_, by simp [doc77, doc65], ?_, by simp [doc77, doc65], by simp [doc77, doc65]⟩
  · simp only [doc77, doc65, List.mem_singleton, forall_eq]
    exact jsonId_of (by decide) (by decide)
  · intro i hi c hc
    cases hi
    simp only [List.mem_singleton] at hc
    subst hc
    exact ⟨by decide, ⟨by decide, by decide, by decide, by decide, by decide⟩, fun _ => by decide, fun _ => by decide⟩
  · simp only [doc77, doc65, List.mem_cons, List.not_mem_nil, or_false]
    rintro p (rfl | rfl)
    · exact ⟨jsonId_of (by decide) (by decide), by simp, by simp, by simp, by simp⟩
    · refine ⟨jsonId_of (by decide) (by decide), ?_, by simp, ?_, by simp⟩
      · intro s hs
        cases hs
        exact ⟨.inr ⟨by decide, by decide, by decide, ⟨by decide, by decide, by decide, by decide, by decide⟩⟩, fun _ => by decide, fun _ => by decide⟩
      · simp only [List.mem_singleton, forall_eq]
        exact ⟨jsonId_of (by decide) (by decide), by simp⟩
  · simp only [doc77, doc65, List.mem_singleton, forall_eq]
    exact ⟨⟨.element _ (by decide) (by decide) (by decide), fun _ => by decide, fun _ => by decide⟩,
      ⟨.element _ (by decide) (by decide) (by decide), fun _ => by decide, fun _ => by decide⟩⟩

theorem doc77_whole : WholeDoc .v23 doc77 := by
  refine ⟨rfl, ?_, by simp [doc77, doc65], by simp [doc77, doc65], by simp [doc77, doc65]⟩
  simp only [doc77, doc65, List.mem_cons, List.not_mem_nil, or_false]
  rintro p (rfl | rfl)
  · exact ⟨rfl, rfl, by simp, by simp, by simp, by simp, by simp, by simp⟩
  · refine ⟨rfl, rfl, by decide, ?_, ?_, by simp, by simp, by simp⟩
    · intro _
      simp only [List.mem_singleton, forall_eq]
      decide
    · simp only [List.mem_singleton, forall_eq]
      exact ⟨rfl, by simp, by simp, by simp⟩


theorem doc77_portable : Portable .v23 doc77 := by
  have hd : DistinctIds doc77 := by constructor <;> decide
  refine ⟨rfl, doc77_representable, doc77_json, doc77_whole, hd, fun so text h => ?_⟩
  rw [C13_output_independent_of_order .v23 so insertionSorter doc77 doc77 (sameDoc_refl _) hd] at h
  have fits : (match writeTagValue .v23 insertionSorter doc77 with
    | .ok t => decide (LinesFit t)
    | _ => true) = true := by decide +kernel
  rw [h] at fits
  exact of_decide_eq_true fits

/-- Surroundings: JSON is YAML. -/
def w77 : Surroundings := ⟨insertionSorter, fun _ _ d => d, jsonYaml, fun _ => true, fun _ => .err⟩

theorem w77_yaml (e : Doc) (j : Json) (hj : writeJson w77.so .v23 true e = .ok j) : YamlKeeps w77.y j := by
  refine ⟨j.text, rfl, fun _ => ⟨j, ?_, like_refl j⟩⟩
  have hf := writeJson_fine (float := fun _ => true) (fun s _ r _ => ⟨⟨rfl, rfl⟩, ⟨rfl, rfl⟩⟩) hj
  exact scanJson_iff.2 ⟨[], j.text, [], by simp, blank_nil, blank_nil, text_spelt j hf.spelt, Nat.le_trans hf.flat (by decide)⟩

/-- From JSON to tag-value, to YAML, to tag-value over the first file, to tag-value in place, and to JSON over the input file. -/
def jobs77 : List Job :=
  [⟨.jsonToTv, g!"x", g!"a", g!"b", {}⟩, ⟨.tvToYaml, g!"x", g!"b", g!"c", {}⟩, ⟨.yamlToTv, g!"x", g!"c", g!"b", {}⟩,
   ⟨.loadSave, g!"x", g!"b", g!"b", {}⟩, ⟨.tvToJson, g!"x", g!"b", g!"a", {}⟩]

/-- A document and programs that meet the hypotheses of `C77_chain`. -/
theorem C77_sample : ∃ content, JobChain .json g!"a" jobs77 .json g!"a" ∧ (∀ j ∈ jobs77, j.mishaps.Faithful ∧ j.mishaps.Absent) ∧
    Portable .v23 doc77 ∧ readKind w77 .json content = .ok doc77 ∧
    ∃ content' e, afterAll w77 jobs77 (FileSystem.put (fun _ => none) g!"a" content) g!"a" = some content' ∧
      readKind w77 .json content' = .ok e ∧ SameDoc doc77 e := by
  obtain ⟨s, -, h2⟩ := C58_unchanged w77.so w77.so w77.copy w77.float (fun _ _ => rfl) w77.odd .v23 true [] (by simp [Blank]) doc77
    (jsonDocument_weaken doc77_json) rfl doc77_whole
  have hc : JobChain .json g!"a" jobs77 .json g!"a" := .cons rfl rfl (.cons rfl rfl (.cons rfl rfl (.cons rfl rfl (.cons rfl rfl .nil))))
  have hm : ∀ j ∈ jobs77, j.mishaps.Faithful ∧ j.mishaps.Absent := by
    have fine : (({} : Mishaps).Faithful ∧ ({} : Mishaps).Absent) := ⟨fun s _ => by simp, ⟨rfl, fun _ => rfl, rfl, fun _ => rfl⟩⟩
    intro j hj
    simp only [jobs77, List.mem_cons, List.not_mem_nil, or_false] at hj
    rcases hj with rfl | rfl | rfl | rfl | rfl <;> exact fine
  exact ⟨s, hc, hm, doc77_portable, h2,
    C77_chain w77 (fun _ _ => rfl) doc77 doc77_portable w77_yaml jobs77 _ _ _ _ hc hm _ s put_same h2⟩

/-- A text with two packages. -/
def text77 : Str :=
  g!"SPDXVersion: SPDX-2.3\nSPDXID: SPDXRef-DOCUMENT\nCreated: 2020\nPackageName: p\nSPDXID: SPDXRef-p\nPackageName: q\nSPDXID: SPDXRef-q\n"

/-- It is in one file, and another file has an old text. -/
def fs77 : FileSystem := (FileSystem.put (fun _ => none) g!"in" text77).put g!"out" g!"old"

/-- A disk with room for a line only. -/
def full77 : Mishaps := { takes := fun n => if n = 0 then none else some 0 }

/-- The text is loaded, also with a full disk, so that the hypotheses of `C77_output`, `C77_saved` and
`C77_json_never_wrong` are met; and what happens if the text does not fit, if the output file cannot be created, and
if the input file is not JSON. -/
theorem C77_sample_full : full77.Faithful ∧ full77.Final ∧ (∃ d, Loads .tvToJson w77 g!"in" full77 fs77 d) ∧
    ((Conversion.run .tvToJson w77 [g!"x", g!"in", g!"out"] { full77 with takes := fun _ => some 9 } fs77).getLast?.map fun x =>
      (x.files g!"out", x.said)) = some (some g!"{\"spdxVer", [.loaded g!"in", .cannotSave g!"out"]) ∧
    ((Conversion.run .tvToJson w77 [g!"x", g!"in", g!"out"] { full77 with createFails := true } fs77).getLast?.map fun x =>
      (x.files g!"out", x.said)) = some (some g!"old", [.loaded g!"in", .cannotCreate g!"out"]) ∧
    ((Conversion.run .jsonToTv w77 [g!"x", g!"in", g!"out"] {} fs77).getLast?.map fun x =>
      (x.files g!"out", x.said)) = some (some g!"old", [.cannotParse g!"in"]) := by
  refine ⟨fun s _ => by simp [full77], fun n k h1 h2 => ?_, ?_, by decide +kernel, by decide +kernel, by decide +kernel⟩
  · show (if k = 0 then none else some 0) = _
    rw [if_neg (by omega)]
  · have h : (match readTagValueInto w77.copy true .v23 text77 with | .ok _ => true | _ => false) = true := by decide +kernel
    cases hr : readTagValueInto w77.copy true .v23 text77 with
    | ok d => exact ⟨d, rfl, text77, rfl, rfl, hr⟩
    | err => rw [hr] at h; cases h
    | panic => rw [hr] at h; cases h

/-- "A document is not lost if a program that converts it in place is killed" is false: between emptying the file and
writing there is nothing in it. -/
theorem C77_in_place_false : ∃ x ∈ Conversion.run .loadSave w77 [g!"x", g!"in", g!"in"] {} fs77,
    fs77 g!"in" = some text77 ∧ x.files g!"in" = some [] := by
  refine ⟨⟨fs77.put g!"in" [], [.loaded g!"in"]⟩, ?_, rfl, rfl⟩
  have hl : ∃ d, Loads .loadSave w77 g!"in" {} fs77 d := by
    obtain ⟨-, -, ⟨d, -, h⟩, -⟩ := C77_sample_full
    exact ⟨d, rfl, h⟩
  obtain ⟨d, hl⟩ := hl
  rw [run_loaded (fun s _ => by simp) hl]
  simp [savePart, Moment.put]

/-- "If a program says that it saved the document, it did" is false for tag-value: the disk is full, all but the first
line is missing, and the program says that it saved the document. -/
theorem C77_reported_false :
    ((Conversion.run .loadSave w77 [g!"x", g!"in", g!"out"] full77 fs77).getLast?.map fun x => (x.files g!"out", x.said)) =
      some (some g!"SPDXVersion: SPDX-2.3\n", [.loaded g!"in", .saved g!"out"]) := by
  decide +kernel

/-- "A tag-value file that a killed program leaves behind is not read as another document" is false: it is read as a
document without the second package. -/
theorem C77_cut_tagvalue_false :
    ((Conversion.run .loadSave w77 [g!"x", g!"in", g!"out"] {} fs77)[120]?.bind fun x => x.files g!"out").map
      (fun q => match readKind w77 .tagValue q with | .ok e => e.packages.map (·.spdxId) | _ => []) = some [g!"p"] := by
  decide +kernel

/-- "If a document cannot be saved, the output file stays as it was" is false: a document without creation information is
loaded but cannot be written, and the output file is empty after that. -/
theorem C77_emptied_false :
    ((Conversion.run .loadSave w77 [g!"x", g!"in", g!"out"] {} (fs77.put g!"in" g!"SPDXVersion: SPDX-2.3\n")).getLast?.map fun x =>
      (x.files g!"out", x.said)) = some (some [], [.loaded g!"in", .cannotSave g!"out"]) := by
  decide +kernel

end Verif
