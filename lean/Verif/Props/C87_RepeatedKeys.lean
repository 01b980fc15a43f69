import Verif.Lemmas.Reuse
import Verif.Props.C85_JsonStable

/-!
# C87: keys that occur twice
-/

namespace Verif
open Spec

theorem tidyList_nulls : ∀ {l : List Json}, (∀ j ∈ l, tidy j true = true) → tidyList l true = true
  | [], _ => by rw [tidyList]
  | j :: l, h => by
    have h1 := h j (by simp)
    have h2 := tidyList_nulls (l := l) fun k hk => h k (by simp [hk])
    cases j <;> simp_all [tidyList]

mutual
theorem tidy_nulls : ∀ (j : Json), tidy j = true → tidy j true = true
  | .null, _ => by rw [tidy] <;> simp
  | .bool _, _ => by rw [tidy] <;> simp
  | .num _, _ => by rw [tidy] <;> simp
  | .str _, _ => by rw [tidy] <;> simp
  | .arr l, h => by
    rw [tidy] at *
    exact tidyList_nulls (tidyEach_nulls l h)
  | .obj es, h => by
    rw [tidy, Bool.and_eq_true] at *
    exact ⟨h.1, tidyFields_nulls es h.2⟩
theorem tidyEach_nulls : ∀ (l : List Json), tidyList l = true → ∀ j ∈ l, tidy j true = true
  | [], _, j, hj => by cases hj
  | a :: l, h, j, hj => by
    have ha : tidy a = true ∧ tidyList l = true := by cases a <;> simp_all [tidyList]
    rcases List.mem_cons.1 hj with e | hj
    · rw [e]; exact tidy_nulls a ha.1
    · exact tidyEach_nulls l ha.2 j hj
theorem tidyFields_nulls : ∀ (es : List (Str × Json)), tidyFields es = true → tidyFields es true = true
  | [], _ => by rw [tidyFields]
  | (k, j) :: es, h => by
    rw [tidyFields, Bool.and_eq_true] at *
    exact ⟨tidy_nulls j h.1, tidyFields_nulls es h.2⟩
end

section
variable (r : Reuse) (so : Sorter) (copy : Version → Version → Doc → Doc) (float : Str → Bool) (odd : Str → Res Doc)

/-- **C87.** Unless an object has a key twice, what earlier values have left in memory does not matter to reading. -/
theorem C87_text (isPtr : Bool) (target : Version) (s : Str) (j : Json) (hs : JsonTextOf s j) (hj : tidy j true = true) :
    readJsonTextR r so copy float odd isPtr target s = readJsonText so copy float odd isPtr target s := by
  unfold readJsonTextR readJsonText
  rw [scanJson_iff.2 hs]
  simp only [readJsonIntoR_eq so copy isPtr target j hj]

/-- **C87.** So a text is read as exactly what the JSON object it is says, as in C58. -/
theorem C87_says (target : Version) (s : Str) (es : List (Str × Json)) (hs : JsonTextOf s (.obj es)) (hf : Json.floats float (.obj es) = true)
    (hp : Json.agentsPlain (.obj es) = true) (ht : tidy (.obj es) = true) (hv : StatesVersion es target) (d : Doc) :
    readJsonTextR r so copy float odd true target s = .ok d ↔ DocumentIs target es d := by
  rw [C87_text r so copy float odd true target s _ hs (tidy_nulls _ ht)]
  exact C58_says so copy float odd target s es hs hf hp ht hv d

/-- **C87.** And a document that was written is read as it is kept. -/
theorem C87_round_trip (so' : Sorter) (hf : ∀ n, IsInt64 n → float (itoa n) = true) (v : Version) (html : Bool) (indent : Str)
    (hi : Blank indent) (d : Doc) (hd : JsonDocument html d) (hv : d.spdxVersion = versionName v) :
    ∃ s, writeJsonText so' v html indent d = .ok s ∧ readJsonTextR r so copy float odd true v s = .ok (keptDoc v d) := by
  obtain ⟨s, h1, h2⟩ := C58_round_trip so' so copy float hf odd v html indent hi d hd hv
  obtain ⟨es, h3, h4⟩ := C85_legal so' v html indent hi d s h1
  exact ⟨s, h1, by rw [C87_text r so copy float odd true v s _ h3 (tidy_nulls _ h4)]; exact h2⟩

/-- **C87.** Whatever is left in memory, and whatever keys occur twice, reading does not panic. -/
theorem C87_no_panic (isPtr : Bool) (target : Version) (s : Str) (hodd : ∀ s, odd s ≠ .panic) :
    readJsonTextR r so copy float odd isPtr target s ≠ .panic := by
  unfold readJsonTextR
  repeat' first
    | exact err_safe
    | exact readJsonIntoR_safe _ _ _ _ _
    | exact hodd _
    | split

theorem lastEntry_last (key : Str) : ∀ es : List (Str × Json), lastEntry key es = ((es.filter fun e => e.1 = key).map (·.2)).getLast?
  | [] => rfl
  | (k, j) :: es => by
    rw [lastEntry, lastEntry_last key es]
    by_cases hk : k = key
    · simp only [List.filter_cons, hk, decide_true, if_true, List.map_cons, List.getLast?_cons]
      cases ((es.filter fun e => e.1 = key).map (·.2)).getLast? <;> rfl
    · simp only [List.filter_cons, hk, decide_false, if_false, Bool.false_eq_true]
      cases ((es.filter fun e => e.1 = key).map (·.2)).getLast? <;> rfl

theorem decodeDocR_length {v : Version} {es : List (Str × Json)} {d : Doc} (h : decodeDocR r so v (.obj es) = .ok d) : LengthsOf es d := by
  cases v
  case v21 =>
    unfold decodeDocR at h
    obtain ⟨t, h1, h⟩ := bind_eq_ok.1 h
    obtain ⟨ps, h2, h⟩ := bind_eq_ok.1 h
    obtain ⟨rs, h3, h⟩ := bind_eq_ok.1 h
    cases h
    obtain ⟨a, b, c, e, f, g⟩ := docFieldsR_length h1
    refine ⟨a, ?_, c, e, f, g⟩
    cases hp : allSome t.packages with
    | none => rw [hp] at h2; cases h2
    | some l => rw [hp] at h2; cases h2; simp [allSome_length hp, b]
  all_goals
    unfold decodeDocR at h
    obtain ⟨t, h1, h⟩ := bind_eq_ok.1 h
    obtain ⟨ds, h3, h⟩ := bind_eq_ok.1 h
    obtain ⟨ps, h2, h⟩ := bind_eq_ok.1 h
    cases h
    obtain ⟨a, b, c, e, f, g⟩ := docFieldsR_length h1
    refine ⟨a, ?_, c, e, f, g⟩
    cases hp : allSome t.packages with
    | none => rw [hp] at h2; cases h2
    | some l => rw [hp] at h2; cases h2; simp [allSome_length hp, b]

/-- **C87.** Whatever keys occur twice, the last one of the version says the version, and the lists of what is read
are as long as the last value under their keys. -/
theorem C87_length (target : Version) (s : Str) (es : List (Str × Json)) (hs : JsonTextOf s (.obj es))
    (hp : Json.agentsPlain (.obj es) = true) (d : Doc) (h : readJsonTextR r so copy float odd true target s = .ok d) :
    ∃ v d0, LastStates es v ∧ LengthsOf es d0 ∧ ConvertedTo v target d0 d := by
  unfold readJsonTextR at h
  rw [scanJson_iff.2 hs] at h
  simp only [Bool.not_true, Bool.false_eq_true, if_false, hp, if_true] at h
  split at h
  · cases h
  · unfold readJsonIntoR at h
    simp only [Bool.not_true, Bool.false_eq_true, if_false] at h
    split at h
    · next raw hr =>
      split at h
      · next v hv =>
        obtain ⟨name, h1, h2⟩ := Option.bind_eq_some_iff.1 hv
        obtain ⟨d0, h3, h⟩ := bind_eq_ok.1 h
        cases h
        exact ⟨v, d0, ⟨raw, name, by rw [← lastEntry_last]; exact hr, h1, versionNamed_iff.1 h2⟩, decodeDocR_length r so h3,
          convertSteps_converted copy v target d0⟩
      · cases h
    · cases h

/-- A text with the files of a document twice. -/
def twoFiles : Str := g!"{\"spdxVersion\":\"SPDX-2.3\",\"files\":[{\"fileName\":\"./a\",\"SPDXID\":\"SPDXRef-a\",\"comment\":\"of a\",\"fileContributors\":[\"x\",\"y\"]}],\"files\":[{\"fileName\":\"./b\",\"SPDXID\":\"SPDXRef-b\",\"fileContributors\":[\"z\"]}]}"

end

/-- **The last of several values does not always count.**  If the files of a document are given twice, the file that
is read has the name of the last one and the comment of the first one, although an array that is given once has
nothing of the kind. -/
theorem C87_mixed_false : ∃ j d, JsonTextOf twoFiles j ∧ tidy j true = false ∧
    readJsonTextR .zeros insertionSorter (fun _ _ d => d) (fun _ => true) (fun _ => .err) true .v23 twoFiles = .ok d ∧
    d.files.map (fun f => (f.name, f.spdxId, f.comment, f.contributors)) = [(g!"./b", g!"b", g!"of a", [g!"z"])] := by
  have h : (scanJson twoFiles).map (tidy · true) = some false := by decide +kernel
  obtain ⟨j, h1, h2⟩ := Option.map_eq_some_iff.1 h
  exact ⟨j, { spdxVersion := g!"SPDX-2.3", files := [{ name := g!"./b", spdxId := g!"b", comment := g!"of a", contributors := [g!"z"] }] },
    scanJson_iff.1 h1, h2, by decide +kernel, by decide +kernel⟩

/-- The lists are as long as their last values: a second array of one file replaces one of two, and null leaves none. -/
theorem C87_length_sample : ∃ d,
    readJsonTextR .zeros insertionSorter (fun _ _ d => d) (fun _ => true) (fun _ => .err) true .v23
      g!"{\"spdxVersion\":\"SPDX-2.2\",\"spdxVersion\":\"SPDX-2.3\",\"files\":[{\"fileName\":\"./a\"},{\"fileName\":\"./b\"}],\"Files\":[{\"fileName\":\"./c\"}],\"annotations\":[{\"comment\":\"x\"}],\"annotations\":null}" = .ok d ∧
    d.files.map (·.name) = [g!"./c"] ∧ d.annotations = [] :=
  ⟨{ spdxVersion := g!"SPDX-2.3", files := [{ name := g!"./c" }] }, by decide +kernel, by decide +kernel, rfl⟩

/-- The packages of a document given twice are not mixed: a package is read into a variable of its own.  (Nor are
external references; files, snippets, relationships, annotations and licenses are.) -/
theorem C87_packages_sample : ∃ d,
    readJsonTextR .zeros insertionSorter (fun _ _ d => d) (fun _ => true) (fun _ => .err) true .v23
      g!"{\"spdxVersion\":\"SPDX-2.3\",\"packages\":[{\"name\":\"a\",\"SPDXID\":\"SPDXRef-a\",\"comment\":\"of a\"}],\"packages\":[{\"name\":\"b\",\"SPDXID\":\"SPDXRef-b\"}]}" = .ok d ∧
    d.packages.map (fun p => (p.name, p.spdxId, p.comment)) = [(g!"b", g!"b", [])] :=
  ⟨{ spdxVersion := g!"SPDX-2.3", packages := [{ name := g!"b", spdxId := g!"b", filesAnalyzed := true }] }, by decide +kernel, by decide +kernel⟩

/-- The hypotheses are met by the sample document of C57, which is read alike with any memory. -/
theorem C87_sample (r : Reuse) (so : Sorter) : tidy (.obj (saidObject g!"SPDX-2.3")) true = true ∧
    readJsonIntoR r so (fun _ _ d => d) true .v23 (.obj (saidObject g!"SPDX-2.3")) = .ok saidDoc := by
  have ht := (C57_sample so).1
  have hv := (C57_sample so).2.1
  refine ⟨tidy_nulls _ ht, ?_⟩
  rw [readJsonIntoR_eq so _ _ _ _ (tidy_nulls _ ht)]
  exact (C57_same_version so _ .v23 _ ht hv saidDoc).2 (C57_sample so).2.2.1

end Verif
