import Verif.Props.C85_JsonStable
import Verif.Lemmas.EmptyDocs
import Verif.Spec.EmptyLists

/-!
# C86: lists that are missing and lists that are empty
-/

namespace Verif
open Spec

/-- **C86.** Whichever lists without elements are empty rather than nil, a document is written as legal JSON text,
with any indentation and with or without HTML escaping, and reading the text yields the same document. -/
theorem C86_read (so so' : Sorter) (copy : Version → Version → Doc → Doc) (float : Str → Bool)
    (hf : ∀ n, IsInt64 n → float (itoa n) = true) (odd : Str → Res Doc) (v : Version) (html : Bool) (indent : Str) (hi : Blank indent)
    (m : DocMarks) (d : Doc) (hd : JsonDocument html d) (hv : d.spdxVersion = versionName v) :
    ∃ s j, writeJsonTextM so v html indent m d = .ok s ∧ JsonTextOf s j ∧ readJsonText so' copy float odd true v s = .ok (keptDoc v d) := by
  obtain ⟨j, h1, h2⟩ := json_round_tripM so so' copy v html m d hd hv
  have fine : FineJson float 7 j := writeJsonM_fine (fun s hs r hr =>
    have := (hd.snippets s hs).ranges r hr
    ⟨⟨hf _ this.1.offset, hf _ this.1.line⟩, ⟨hf _ this.2.offset, hf _ this.2.line⟩⟩) h1
  have h3 := written_text hi (by decide) fine
  refine ⟨_, j, ?_, h3, ?_⟩
  · unfold writeJsonTextM
    rw [h1, Res.bind_ok]
  · rw [readJsonText_of so' copy float odd v h3, fine.floats, fine.plain]
    exact h2 j (like_refl j)

/-- **C86.** The texts of the same document with different lists empty are read alike. -/
theorem C86_alike (so so' so'' : Sorter) (copy : Version → Version → Doc → Doc) (float : Str → Bool)
    (hf : ∀ n, IsInt64 n → float (itoa n) = true) (odd : Str → Res Doc) (v : Version) (html : Bool) (indent : Str) (hi : Blank indent)
    (m m' : DocMarks) (d : Doc) (hd : JsonDocument html d) (hv : d.spdxVersion = versionName v) (s s' : Str)
    (hs : writeJsonTextM so v html indent m d = .ok s) (hs' : writeJsonTextM so' v html indent m' d = .ok s') :
    readJsonText so'' copy float odd true v s = readJsonText so'' copy float odd true v s' := by
  obtain ⟨t, j, h1, -, h2⟩ := C86_read so so'' copy float hf odd v html indent hi m d hd hv
  obtain ⟨t', j', h1', -, h2'⟩ := C86_read so' so'' copy float hf odd v html indent hi m' d hd hv
  rw [hs] at h1
  rw [hs'] at h1'
  cases h1
  cases h1'
  rw [h2, h2']

/-- **C86.** If all lists without elements are nil, the text is the one of C58 and C85. -/
theorem C86_nil (so : Sorter) (v : Version) (html : Bool) (indent : Str) (d : Doc) :
    writeJsonTextM so v html indent {} d = writeJsonText so v html indent d := by
  unfold writeJsonTextM writeJsonText
  rw [writeJsonM_nil]

/-! ## What is written -/

theorem mem_written {σ β : Type} {b : Bool} {zero : β} {c : Codec β} {fs : List (Field σ)} {key : Str} {get : σ → List β} {set : List β → σ → σ}
    {i : List β → Bool} {s : σ} {es : List (Str × Json)} (he : encodeFields s fs = .ok es)
    (hm : { β := List β, key, get, set, isEmpty := i, codec := markCodec b (listCodec zero c) } ∈ fs) (hi : i (get s) = false) (hl : get s = []) :
    (key, noElements b) ∈ es := by
  obtain ⟨j, h1, h2⟩ := encode_mem he hm hi
  have h3 : (markCodec b (listCodec zero c)).enc (get s) = .ok j := h1
  rw [hl] at h3
  cases b <;> cases h3 <;> exact h2

theorem struct_ok {σ : Type} {fs : List (Field σ)} {s : σ} {j : Json} (h : (structCodec fs).enc s = .ok j) :
    ∃ es, encodeFields s fs = .ok es ∧ j = .obj es := by
  simp only [structCodec] at h
  cases he : encodeFields s fs with
  | err => rw [he] at h; cases h
  | panic => rw [he] at h; cases h
  | ok es =>
    rw [he, Res.bind_ok] at h
    cases h
    exact ⟨es, rfl, rfl⟩

theorem mem_replaced {σ : Type} {g f : Field σ} {fs : List (Field σ)} (hf : f ∈ fs) (hk : f.key = g.key) : g ∈ replaceField g fs :=
  List.mem_map.2 ⟨f, hf, if_pos hk⟩

/-- **C86.** In the object of a file, a list of checksums without elements is `[]` if it is empty and `null` if it
is nil; so is the list of licenses in the file, except that version 2.3 leaves it out. -/
theorem C86_file (v : Version) (m : FileMarks) (f : FileV) (j : Json) (h : (fileCodecM v m).enc f = .ok j) :
    ∃ es, j = .obj es ∧ (f.checksums = [] → (g!"checksums", noElements m.checksums) ∈ es) ∧
      (f.licenseInfoInFiles = [] → v ≠ .v23 → (g!"licenseInfoInFiles", noElements m.licenseInfoInFiles) ∈ es) := by
  obtain ⟨es, he, rfl⟩ := struct_ok h
  refine ⟨es, rfl, fun hl => ?_, fun hl hv => ?_⟩
  · exact mem_written he (mem_replaced (g := fileChecksumsM m) (mem_file_checksumsM v m) (show g!"checksums" = g!"checksums" from rfl)) rfl hl
  · have hm : fileInfoM v m ∈ fileFieldsM v m :=
      mem_replace (mem_replaced (mem_file_info v) (show g!"licenseInfoInFiles" = g!"licenseInfoInFiles" from rfl))
        (show g!"licenseInfoInFiles" ≠ g!"checksums" by decide)
    exact mem_written he hm (by simp [hv]) hl

/-- **C86.** So is the list of creators, -/
theorem C86_creators (b : Bool) (i : CreationInfo) (j : Json) (h : (creationInfoCodecM b).enc i = .ok j) :
    ∃ es, j = .obj es ∧ (i.creators = [] → (g!"creators", noElements b) ∈ es) := by
  obtain ⟨es, he, rfl⟩ := struct_ok h
  exact ⟨es, rfl, fun hl => mem_written he (mem_replaced (g := creatorsM b) mem_creators (show g!"creators" = g!"creators" from rfl)) rfl hl⟩

/-- **C86.** and the list of ranges of a snippet. -/
theorem C86_ranges (v : Version) (b : Bool) (s : Snippet) (j : Json) (h : (snippetCodecM v b).enc s = .ok j) :
    ∃ es, j = .obj es ∧ (s.ranges = [] → (g!"ranges", noElements b) ∈ es) := by
  obtain ⟨es, he, rfl⟩ := struct_ok h
  exact ⟨es, rfl, fun hl => mem_written he (mem_replaced (g := rangesM b) (mem_snippet_ranges v) (show g!"ranges" = g!"ranges" from rfl)) rfl hl⟩

/-- **C86.** The object of a package names a verification code as specified. -/
theorem C86_code (so : Sorter) (v : Version) (m : PackageMarks) (p : PackageV) (hf : List DocElementID) (j : Json)
    (h : encodePackageM so v m (p, hf) = .ok j) :
    ∃ es, j = .obj es ∧ (g!"packageVerificationCode" ∈ es.map (·.1) ↔ NamesCode v m p) := by
  have mem : codeField v ∈ packageFieldsM v m := List.mem_append_right _ (by simp)
  have written : ∀ es, encodeFields p (packageFieldsM v m) = .ok es → (codeField v).isEmpty ((codeField v).get p) = false →
      codeKey ∈ es.map (·.1) := by
    intro es he hi
    obtain ⟨j, -, h2⟩ := encode_mem he mem hi
    refine List.mem_map.2 ⟨_, h2, ?_⟩
    cases v <;> rfl
  cases v with
  | v21 =>
    obtain ⟨es, he, rfl⟩ := struct_ok (show (structCodec (packageFieldsM .v21 m)).enc p = .ok j from h)
    exact ⟨es, rfl, fun _ => trivial, fun _ => written es he rfl⟩
  | v23 =>
    obtain ⟨es, he, rfl⟩ := struct_ok (show (structCodec (packageFieldsM .v23 m)).enc p = .ok j from h)
    refine ⟨es, rfl, fun hm hn => ?_, fun hn => written es he ?_⟩
    · have others : ∀ f ∈ packageFieldsM .v23 m, f.isEmpty (f.get p) = false → f.key ≠ codeKey := by
        intro f hf hi hk
        have : f = codeField .v23 :=
          field_unique (by rw [packageKeysM]; exact keys_package .v23) hf mem (hk.trans (show codeKey = codeKey from rfl))
        subst this
        have : ((codeField .v23).isEmpty ((codeField .v23).get p)) = p.verificationCode.isNone := rfl
        rw [this, hn] at hi
        cases hi
      have keys : ∀ (fs : List (Field PackageV)) (es : List (Str × Json)), (∀ f ∈ fs, f.isEmpty (f.get p) = false → f.key ≠ codeKey) →
          encodeFields p fs = .ok es → codeKey ∉ es.map (·.1) := by
        intro fs
        induction fs with
        | nil => intro es _ he; cases he; simp
        | cons f fs ih =>
          intro es ho he
          rw [encodeFields] at he
          have ih' := fun es => ih es fun f hf => ho f (by simp [hf])
          split at he
          · exact ih' es he
          · next hi =>
            cases h1 : f.codec.enc (f.get p) with
            | err => rw [h1] at he; cases he
            | panic => rw [h1] at he; cases he
            | ok x =>
              rw [h1, Res.bind_ok] at he
              cases h2 : encodeFields p fs with
              | err => rw [h2] at he; cases he
              | panic => rw [h2] at he; cases he
              | ok xs =>
                rw [h2, Res.bind_ok] at he
                cases he
                rw [List.map_cons, List.mem_cons, not_or]
                exact ⟨fun e => ho f (by simp) (by simpa using hi) e.symm, ih' xs h2⟩
      exact keys _ es others he hm
    · have : ((codeField .v23).isEmpty ((codeField .v23).get p)) = p.verificationCode.isNone := rfl
      rw [this]
      cases hc : p.verificationCode with
      | none => exact absurd hc hn
      | some c => rfl
  | v22 =>
    simp only [encodePackageM] at h
    cases he : encodeFields p (packageFieldsM .v22 m) with
    | err => rw [he] at h; cases h
    | panic => rw [he] at h; cases h
    | ok es =>
      rw [he, Res.bind_ok] at h
      have code : ((codeValue p.verificationCode).value = [] ∧ (codeValue p.verificationCode).excludedFiles = [] ∧ m.excludedFiles = false) ↔
          ¬ ((∃ c, p.verificationCode = some c ∧ (c.value ≠ [] ∨ c.excludedFiles ≠ [])) ∨ m.excludedFiles = true) := by
        cases p.verificationCode with
        | none => simp [codeValue]
        | some c => simp [codeValue, and_assoc]
      split at h
      · next hc =>
        cases h
        refine ⟨_, rfl, fun hm => ?_, fun hm => absurd hm (code.1 hc)⟩
        exfalso
        have : codeKey ∈ (Json.sortKeysFields so (es.filter fun e => e.1 ≠ codeKey)).map (·.1) :=
          (((so.perm (fun e : Str × Json => e.1) _).map (fun e : Str × Json => e.1)).mem_iff).1 hm
        rw [sortKeysFields_keys] at this
        obtain ⟨e, h1, h2⟩ := List.mem_map.1 this
        have := (List.mem_filter.1 h1).2
        simp [h2] at this
      · next hc =>
        cases h
        exact ⟨es, rfl, fun _ => Classical.not_not.1 fun hn => hc (code.2 hn), fun _ => written es he rfl⟩

/-! ## What is written for a document -/

/-- Changes of a JSON value that keep lists without elements, arrays and keys. -/
structure Mild (T : Json → Json) : Prop where
  null : T .null = .null
  arr : ∀ js, T (.arr js) = .arr (js.map T)
  obj : ∀ es, ∃ es', T (.obj es) = .obj es' ∧ (∀ k j, (k, j) ∈ es → (k, T j) ∈ es') ∧ ∀ k, k ∈ es'.map (·.1) ↔ k ∈ es.map (·.1)

theorem Mild.noElements {T : Json → Json} (h : Mild T) (b : Bool) : T (noElements b) = Spec.noElements b := by
  cases b
  · exact h.null
  · exact h.arr []

theorem mild_id : Mild id := ⟨rfl, fun js => by simp, fun es => ⟨es, rfl, fun _ _ h => h, fun _ => Iff.rfl⟩⟩

theorem escapeHtmlList_map : ∀ l : List Json, Json.escapeHtmlList l = l.map Json.escapeHtml
  | [] => by rw [Json.escapeHtmlList]; rfl
  | j :: l => by rw [Json.escapeHtmlList, escapeHtmlList_map l]; rfl

theorem escapeHtmlFields_map : ∀ l : List (Str × Json), Json.escapeHtmlFields l = l.map fun e => (e.1, e.2.escapeHtml)
  | [] => by rw [Json.escapeHtmlFields]; rfl
  | (k, j) :: l => by rw [Json.escapeHtmlFields, escapeHtmlFields_map l]; rfl

theorem sortKeysList_map (so : Sorter) : ∀ l : List Json, Json.sortKeysList so l = l.map (Json.sortKeys so)
  | [] => by rw [Json.sortKeysList]; rfl
  | j :: l => by rw [Json.sortKeysList, sortKeysList_map so l]; rfl

theorem sortKeysFields_map (so : Sorter) : ∀ l : List (Str × Json), Json.sortKeysFields so l = l.map fun e => (e.1, e.2.sortKeys so)
  | [] => by rw [Json.sortKeysFields]; rfl
  | (k, j) :: l => by rw [Json.sortKeysFields, sortKeysFields_map so l]; rfl

theorem mild_html : Mild Json.escapeHtml := by
  refine ⟨by rw [Json.escapeHtml], fun js => by rw [Json.escapeHtml, escapeHtmlList_map], fun es => ⟨_, by rw [Json.escapeHtml], ?_, ?_⟩⟩
  · intro k j h
    rw [escapeHtmlFields_map]
    exact List.mem_map.2 ⟨(k, j), h, rfl⟩
  · intro k
    rw [escapeHtmlFields_map, List.map_map]
    exact Iff.rfl

theorem mild_sort (so : Sorter) : Mild (Json.sortKeys so) := by
  refine ⟨by rw [Json.sortKeys], fun js => by rw [Json.sortKeys, sortKeysList_map], fun es => ⟨_, by rw [Json.sortKeys], ?_, ?_⟩⟩
  · intro k j h
    rw [(so.perm _ _).mem_iff, sortKeysFields_map]
    exact List.mem_map.2 ⟨(k, j), h, rfl⟩
  · intro k
    rw [((so.perm _ _).map _).mem_iff, sortKeysFields_map, List.map_map]
    exact Iff.rfl

section
variable {T : Json → Json} (hT : Mild T)
include hT

theorem mild_each {α : Type} {P : Nat → α → Json → Prop} {key : Str} {l : List α} {es es' : List (Str × Json)} (h : EachAt P key l es)
    (he : ∀ k j, (k, j) ∈ es → (k, T j) ∈ es') (hP : ∀ i a j, P i a j → P i a (T j)) : EachAt P key l es' := by
  intro hl
  obtain ⟨js, h1, h2, h3⟩ := h hl
  refine ⟨js.map T, ?_, by rw [List.length_map, h2], fun i a ha => ?_⟩
  · have := he _ _ h1
    rwa [hT.arr] at this
  · obtain ⟨j, h4, h5⟩ := h3 i a ha
    exact ⟨T j, by rw [List.getElem?_map, h4]; rfl, hP i a j h5⟩

theorem mem_noElements {k : Str} {b : Bool} {es es' : List (Str × Json)} (h : (k, noElements b) ∈ es)
    (he : ∀ k j, (k, j) ∈ es → (k, T j) ∈ es') : (k, noElements b) ∈ es' := by
  have := he _ _ h
  rwa [hT.noElements] at this

theorem mild_file {v : Version} {m : FileMarks} {f : FileV} {j : Json} (h : ListsOfFile v m f j) : ListsOfFile v m f (T j) := by
  obtain ⟨es, rfl, h1, h2⟩ := h
  obtain ⟨es', h3, h4, -⟩ := hT.obj es
  exact ⟨es', h3, fun h => mem_noElements hT (h1 h) h4, fun h h' => mem_noElements hT (h2 h h') h4⟩

theorem mild_snippet {b : Bool} {s : Snippet} {j : Json} (h : ListsOfSnippet b s j) : ListsOfSnippet b s (T j) := by
  obtain ⟨es, rfl, h1⟩ := h
  obtain ⟨es', h3, h4, -⟩ := hT.obj es
  exact ⟨es', h3, fun h => mem_noElements hT (h1 h) h4⟩

theorem mild_info {b : Bool} {i : CreationInfo} {j : Json} (h : ListsOfInfo b i j) : ListsOfInfo b i (T j) := by
  obtain ⟨es, rfl, h1⟩ := h
  obtain ⟨es', h3, h4, -⟩ := hT.obj es
  exact ⟨es', h3, fun h => mem_noElements hT (h1 h) h4⟩

theorem mild_package {v : Version} {m : PackageMarks} {p : PackageV} {j : Json} (h : ListsOfPackage v m p j) : ListsOfPackage v m p (T j) := by
  obtain ⟨es, rfl, h1, h2, h3⟩ := h
  obtain ⟨es', h4, h5, h6⟩ := hT.obj es
  exact ⟨es', h4, fun h h' => mem_noElements hT (h1 h h') h5, mild_each hT h2 h5 fun _ _ _ h => mild_file hT h, (h6 _).trans h3⟩

theorem mild_document {v : Version} {m : DocMarks} {d : Doc} {j : Json} (h : ListsOfDocument v m d j) : ListsOfDocument v m d (T j) := by
  obtain ⟨es, rfl, h1, h2, h3, h4⟩ := h
  obtain ⟨es', h5, h6, -⟩ := hT.obj es
  refine ⟨es', h5, fun i hi => ?_, mild_each hT h2 h6 fun _ _ _ h => mild_package hT h, mild_each hT h3 h6 fun _ _ _ h => mild_file hT h,
    mild_each hT h4 h6 fun _ _ _ h => mild_snippet hT h⟩
  obtain ⟨j, h7, h8⟩ := h1 i hi
  exact ⟨_, h6 _ _ h7, mild_info hT h8⟩
end

theorem mapResAt_at {α β : Type} {f : Nat → α → Res β} : ∀ (l : List α) (n : Nat) (bs : List β), mapResAt f n l = .ok bs →
    bs.length = l.length ∧ ∀ (i : Nat) (a : α), l[i]? = some a → ∃ b, bs[i]? = some b ∧ f (n + i) a = .ok b
  | [], n, bs, h => by
    cases h
    exact ⟨rfl, fun i a ha => by simp at ha⟩
  | x :: l, n, bs, h => by
    rw [mapResAt] at h
    cases h1 : f n x with
    | err => rw [h1] at h; cases h
    | panic => rw [h1] at h; cases h
    | ok b =>
      rw [h1, Res.bind_ok] at h
      cases h2 : mapResAt f (n + 1) l with
      | err => rw [h2] at h; cases h
      | panic => rw [h2] at h; cases h
      | ok cs =>
        rw [h2, Res.bind_ok] at h
        cases h
        obtain ⟨h3, h4⟩ := mapResAt_at l (n + 1) cs h2
        refine ⟨by simp [h3], fun i a ha => ?_⟩
        cases i with
        | zero =>
          cases ha
          exact ⟨b, rfl, h1⟩
        | succ i =>
          obtain ⟨c, h5, h6⟩ := h4 i a ha
          exact ⟨c, h5, by rw [← h6]; congr 1; omega⟩

theorem eachAt_of {σ β : Type} {enc : Nat → β → Res Json} {c : Codec (List β)} {fs : List (Field σ)} {key : Str} {get : σ → List β}
    {set : List β → σ → σ} {s : σ} {es : List (Str × Json)} {P : Nat → β → Json → Prop} (he : encodeFields s fs = .ok es)
    (hm : listOptF (eachCodec enc c) key get set ∈ fs) (hP : ∀ i a j, enc i a = .ok j → P i a j) : EachAt P key (get s) es := by
  intro hl
  obtain ⟨j, h1, h2⟩ := encode_mem he hm (show (get s).isEmpty = false by cases hg : get s <;> simp_all)
  have h3 : (eachCodec enc c).enc (get s) = .ok j := h1
  cases hg : get s with
  | nil => exact absurd hg hl
  | cons a l =>
    rw [hg] at h3
    simp only [eachCodec] at h3
    cases h4 : mapResAt enc 0 (a :: l) with
    | err => rw [h4] at h3; cases h3
    | panic => rw [h4] at h3; cases h3
    | ok js =>
      rw [h4, Res.bind_ok] at h3
      cases h3
      obtain ⟨h5, h6⟩ := mapResAt_at _ _ _ h4
      refine ⟨js, h2, h5, fun i a ha => ?_⟩
      obtain ⟨b, h7, h8⟩ := h6 i a ha
      rw [Nat.zero_add] at h8
      exact ⟨b, h7, hP i a b h8⟩

theorem package_lists (so : Sorter) (v : Version) (m : PackageMarks) (p : PackageV) (hf : List DocElementID) (j : Json)
    (h : encodePackageM so v m (p, hf) = .ok j) : ListsOfPackage v m p j := by
  have mem1 : packageInfoM v m ∈ packageFieldsM v m :=
    List.mem_append_right _ (List.mem_cons_of_mem _ (mem_replace
      (mem_replaced (mem_package_info v) (show g!"licenseInfoFromFiles" = g!"licenseInfoFromFiles" from rfl))
      (show g!"licenseInfoFromFiles" ≠ g!"files" by decide)))
  have mem2 : packageFilesM v m ∈ packageFieldsM v m :=
    List.mem_append_right _ (List.mem_cons_of_mem _ (mem_replaced (g := packageFilesM v m) (mem_package_filesM v m) (show g!"files" = g!"files" from rfl)))
  have key : ∀ es, encodeFields p (packageFieldsM v m) = .ok es →
      (p.licenseInfoFromFiles = [] → v = .v21 → (g!"licenseInfoFromFiles", noElements m.licenseInfoFromFiles) ∈ es) ∧
      EachAt (fun i f j => ListsOfFile v (m.files i) f j) g!"files" p.files es := fun es he =>
    ⟨fun hl hv => mem_written he mem1 (by simp [hv]) hl, eachAt_of he mem2 fun i f j hj => C86_file v (m.files i) f j hj⟩
  obtain ⟨es, rfl, hc⟩ := C86_code so v m p hf j h
  refine ⟨es, rfl, ?_⟩
  suffices h' : (p.licenseInfoFromFiles = [] → v = .v21 → (g!"licenseInfoFromFiles", noElements m.licenseInfoFromFiles) ∈ es) ∧
      EachAt (fun i f j => ListsOfFile v (m.files i) f j) g!"files" p.files es from ⟨h'.1, h'.2, hc⟩
  cases v with
  | v21 =>
    obtain ⟨es', he, e⟩ := struct_ok (show (structCodec (packageFieldsM .v21 m)).enc p = .ok (.obj es) from h)
    cases e
    exact key es he
  | v23 =>
    obtain ⟨es', he, e⟩ := struct_ok (show (structCodec (packageFieldsM .v23 m)).enc p = .ok (.obj es) from h)
    cases e
    exact key es he
  | v22 =>
    simp only [encodePackageM] at h
    cases he : encodeFields p (packageFieldsM .v22 m) with
    | err => rw [he] at h; cases h
    | panic => rw [he] at h; cases h
    | ok es' =>
      rw [he, Res.bind_ok] at h
      obtain ⟨-, k2⟩ := key es' he
      refine ⟨fun _ hv => (by cases hv), ?_⟩
      split at h
      · obtain ⟨es'', h1, h2, -⟩ := (mild_sort so).obj (es'.filter fun e => e.1 ≠ codeKey)
        rw [h1] at h
        cases h
        refine mild_each (mild_sort so) (es := es'.filter fun e => e.1 ≠ codeKey) ?_ h2 fun _ _ _ h => mild_file (mild_sort so) h
        intro hl
        obtain ⟨js, h3, h4⟩ := k2 hl
        exact ⟨js, List.mem_filter.2 ⟨h3, show decide (g!"files" ≠ codeKey) = true by decide⟩, h4⟩
      · cases h
        exact k2

/-- **C86.** Throughout the JSON value written for a document, a list without elements that is not left out is `[]` if it
is empty and `null` if it is nil, and packages name verification codes as said. -/
theorem C86_document (so : Sorter) (v : Version) (html : Bool) (m : DocMarks) (d : Doc) (j : Json)
    (h : writeJsonM so v html m d = .ok j) : ListsOfDocument v m d j := by
  unfold writeJsonM at h
  cases h1 : (structCodec (docFieldsM so v m)).enc
      { doc := d, packages := d.packages.map fun p => some (p, []), relationships := d.relationships.map some } with
  | err => rw [h1] at h; cases h
  | panic => rw [h1] at h; cases h
  | ok k =>
    rw [h1, Res.bind_ok] at h
    have hk : ListsOfDocument v m d k := by
      obtain ⟨es, he, rfl⟩ := struct_ok h1
      have mem1 : docInfoM m ∈ docFieldsM so v m := mem_replaced mem_doc_info3 (show g!"creationInfo" = g!"creationInfo" from rfl)
      have mem2 : docPackagesM so v m ∈ docFieldsM so v m :=
        mem_replace (mem_replaced mem_doc_packages2 (show g!"packages" = g!"packages" from rfl)) (show g!"packages" ≠ g!"creationInfo" by decide)
      have mem3 : docFilesM v m ∈ docFieldsM so v m :=
        mem_replace (mem_replace (mem_replaced mem_doc_files1 (show g!"files" = g!"files" from rfl)) (show g!"files" ≠ g!"packages" by decide))
          (show g!"files" ≠ g!"creationInfo" by decide)
      have mem4 : docSnippetsM v m ∈ docFieldsM so v m :=
        mem_replace (mem_replace (mem_replace (mem_replaced mem_doc_snippets (show g!"snippets" = g!"snippets" from rfl))
          (show g!"snippets" ≠ g!"files" by decide)) (show g!"snippets" ≠ g!"packages" by decide)) (show g!"snippets" ≠ g!"creationInfo" by decide)
      have files := eachAt_of he mem3 (P := fun i f j => ListsOfFile v (m.files i) f j) fun i f j hj => C86_file v _ f j hj
      have snippets := eachAt_of he mem4 (P := fun i s j => ListsOfSnippet (m.snippets i) s j) fun i s j hj => C86_ranges v _ s j hj
      refine ⟨es, rfl, fun i hi => ?_, ?_, files, snippets⟩
      · obtain ⟨j, h2, h3⟩ := encode_mem he mem1 rfl
        have h4 : (creationInfoPtrM m.creators).enc d.creationInfo = .ok j := h2
        rw [hi] at h4
        exact ⟨j, h3, C86_creators m.creators i j h4⟩
      · have := eachAt_of he mem2 (P := fun i o j => ∀ p, o = some p → ListsOfPackage v (m.packages i) p.1 j) fun i o j hj p ho => by
          subst ho
          exact package_lists so v _ p.1 p.2 j hj
        intro hl
        obtain ⟨js, h2, h3, h4⟩ := this (show d.packages.map (fun p => some (p, ([] : List DocElementID))) ≠ [] by simpa using hl)
        refine ⟨js, h2, by rw [h3]; exact List.length_map _, fun i p hp => ?_⟩
        obtain ⟨j, h5, h6⟩ := h4 i (some (p, [])) (by
          show (d.packages.map fun p => some (p, ([] : List DocElementID)))[i]? = _
          rw [List.getElem?_map, hp]; rfl)
        exact ⟨j, h5, h6 _ rfl⟩
    cases html
    · cases h
      exact hk
    · cases h
      exact mild_document mild_html hk

/-! ## A document -/

/-- In the document of C47, all lists without elements are empty. -/
def marks86 : DocMarks :=
  { creators := true, packages := fun _ => { excludedFiles := true, licenseInfoFromFiles := true, files := fun _ => { checksums := true, licenseInfoInFiles := true } },
    files := fun _ => { checksums := true, licenseInfoInFiles := true }, snippets := fun _ => true }

/-- The hypotheses are met, and the texts with nil and with empty lists differ. -/
theorem C86_sample : JsonDocument true doc47 ∧ doc47.spdxVersion = versionName .v22 ∧ Blank g!"  " ∧
    writeJsonTextM insertionSorter .v22 true [] marks86 doc47 ≠ writeJsonTextM insertionSorter .v22 true [] {} doc47 :=
  ⟨doc47_ok.1, rfl, by simp [Blank], by decide +kernel⟩

/-- **Writing, reading and writing again gives another text** if a package of 2.2 has no verification code but a
list of excluded files that is empty rather than nil: the text names an empty code, which is read as no code with a
list that is nil. -/
theorem C86_again_false : ∃ (m : DocMarks) (d e : Doc) (s t : Str),
    JsonDocument true d ∧ d.spdxVersion = versionName .v22 ∧
    writeJsonTextM insertionSorter .v22 true [] m d = .ok s ∧
    readJsonText insertionSorter (fun _ _ d => d) (fun _ => true) (fun _ => .err) true .v22 s = .ok e ∧
    writeJsonTextM insertionSorter .v22 true [] {} e = .ok t ∧ s ≠ t := by
  let d : Doc := { spdxVersion := g!"SPDX-2.2", spdxId := g!"DOCUMENT", packages := [{ name := g!"p", spdxId := g!"p" }] }
  have hd : JsonDocument true d :=
    ⟨jsonId_of (by decide) (by decide), by simp [d], by simp [d], by
      simp only [d, List.mem_singleton, forall_eq]
      exact ⟨jsonId_of (by decide) (by decide), by simp, by simp, by simp, by simp⟩, by simp [d], by simp [d], by simp [d], by simp [d]⟩
  let m : DocMarks := { packages := fun _ => { excludedFiles := true } }
  obtain ⟨s, j, h1, -, h2⟩ := C86_read insertionSorter insertionSorter (fun _ _ d => d) (fun _ => true) (fun _ _ => rfl) (fun _ => .err)
    .v22 true [] blank_nil m d hd rfl
  obtain ⟨t, h3, -⟩ := C58_round_trip insertionSorter insertionSorter (fun _ _ d => d) (fun _ => true) (fun _ _ => rfl) (fun _ => .err)
    .v22 true [] blank_nil d hd rfl
  refine ⟨m, d, keptDoc .v22 d, s, t, hd, rfl, h1, h2, ?_, ?_⟩
  · rw [C86_nil, (C85_kept insertionSorter insertionSorter .v22 true [] jsonYaml d).1, h3]
  · rintro rfl
    have : writeJsonTextM insertionSorter .v22 true [] m d ≠ writeJsonText insertionSorter .v22 true [] d := by decide +kernel
    exact this (h1.trans h3.symm)

end Verif
