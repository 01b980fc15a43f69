import Verif.Model.JsonDoc
import Verif.Spec.JsonDoc
import Verif.Lemmas.Json

/-!
# Round trips of the parts of a document
-/

namespace Verif
open Spec

variable {html : Bool} {σ : Type}

/-! ## Fields -/

theorem fieldTrip_of {f : Field σ} {s acc : σ} {b : f.β}
    (ht : f.isEmpty (f.get s) = false → Trip html f.codec (f.get acc) (f.get s) b)
    (he : f.isEmpty (f.get s) = true → f.set b acc = acc) : FieldTrip html f s acc (f.set b acc) := by
  cases h : f.isEmpty (f.get s) with
  | true => exact .inl ⟨h, he h⟩
  | false => exact .inr ⟨h, b, ht h, rfl⟩

theorem ft_str {k : Str} {get : σ → Str} {set : Str → σ → σ} {s acc : σ} :
    FieldTrip html (strF k get set) s acc (set (get s) acc) :=
  fieldTrip_of (f := strF k get set) (fun _ => (trip_str html _ _).trip) (fun h => by cases h)

theorem ft_strOpt {k : Str} {get : σ → Str} {set : Str → σ → σ} {s acc : σ} (h : set [] acc = acc) :
    FieldTrip html (strOptF k get set) s acc (set (get s) acc) :=
  fieldTrip_of (f := strOptF k get set) (fun _ => (trip_str html _ _).trip) fun he => by
    have : get s = [] := List.isEmpty_iff.1 he
    show set (get s) acc = acc
    rw [this, h]

theorem ft_strOpt23 {v : Version} {k : Str} {get : σ → Str} {set : Str → σ → σ} {s acc : σ} (h : set [] acc = acc) :
    FieldTrip html (strOpt23F v k get set) s acc (set (get s) acc) :=
  fieldTrip_of (f := strOpt23F v k get set) (fun _ => (trip_str html _ _).trip) fun he => by
    have : get s = [] := List.isEmpty_iff.1 (Bool.and_eq_true_iff.1 he).2
    show set (get s) acc = acc
    rw [this, h]

theorem ft_codec {β : Type} {c : Codec β} {k : Str} {get : σ → β} {set : β → σ → σ} {s acc : σ} {b : β}
    (t : Trip html c (get acc) (get s) b) : FieldTrip html (codecF c k get set) s acc (set b acc) :=
  fieldTrip_of (f := codecF c k get set) (fun _ => t) (fun h => by cases h)

theorem ft_listOpt {β : Type} {c : Codec (List β)} {k : Str} {get : σ → List β} {set : List β → σ → σ} {s acc : σ} {g : β → β}
    (t : Trip html c (get acc) (get s) ((get s).map g)) (h : set [] acc = acc) :
    FieldTrip html (listOptF c k get set) s acc (set ((get s).map g) acc) :=
  fieldTrip_of (f := listOptF c k get set) (fun _ => t) fun he => by
    have : get s = [] := List.isEmpty_iff.1 he
    show set ((get s).map g) acc = acc
    rw [this]
    exact h

theorem trip_strs (z l : List Str) : Trip html strsCodec z l l := by
  have := trip_list (html := html) (c := strCodec) (zero := []) (g := id) (z := z) (l := l) fun b _ => (trip_str html [] b).trip
  rwa [List.map_id] at this

theorem ft_strsOpt {k : Str} {get : σ → List Str} {set : List Str → σ → σ} {s acc : σ} (h : set [] acc = acc) :
    FieldTrip html (listOptF strsCodec k get set) s acc (set (get s) acc) :=
  fieldTrip_of (f := listOptF strsCodec k get set) (fun _ => trip_strs _ _) fun he => by
    have : get s = [] := List.isEmpty_iff.1 he
    show set (get s) acc = acc
    rw [this, h]

theorem ft_strsOpt' {b : Bool} {k : Str} {get : σ → List Str} {set : List Str → σ → σ} {s acc : σ} (h : set [] acc = acc) :
    FieldTrip html (strsOptF b k get set) s acc (set (get s) acc) :=
  fieldTrip_of (f := strsOptF b k get set) (fun _ => trip_strs _ _) fun he => by
    have : get s = [] := List.isEmpty_iff.1 (Bool.and_eq_true_iff.1 he).2
    show set (get s) acc = acc
    rw [this, h]

theorem ft_ptrOpt {β : Type} {c : Codec (Option β)} {k : Str} {get : σ → Option β} {set : Option β → σ → σ} {s acc : σ}
    (t : ∀ b, get s = some b → Trip html c (get acc) (some b) (some b)) (h : set none acc = acc) :
    FieldTrip html (ptrOptF c k get set) s acc (set (get s) acc) :=
  fieldTrip_of (f := ptrOptF c k get set)
    (fun he => by
      have he : (get s).isNone = false := he
      obtain ⟨b, hb⟩ : ∃ b, get s = some b := by
        cases hg : get s with
        | none => rw [hg] at he; cases he
        | some b => exact ⟨b, rfl⟩
      show Trip html c (get acc) (get s) (get s)
      rw [hb]
      exact t b hb)
    fun he => by
      have : get s = none := Option.isNone_iff_eq_none.1 he
      show set (get s) acc = acc
      rw [this, h]

theorem trip_int {z n : Int} (h : IsInt64 n) : TripN html intCodec z n n := by
  refine ⟨_, rfl, by simp, fun k hk => ?_⟩
  cases hk
  simp only [intCodec, atoi_itoa h.1 h.2, Res.ofOption_some]

theorem ft_intOpt {k : Str} {get : σ → Int} {set : Int → σ → σ} {s acc : σ} (hn : IsInt64 (get s)) (h : set 0 acc = acc) :
    FieldTrip html (intOptF k get set) s acc (set (get s) acc) :=
  fieldTrip_of (f := intOptF k get set) (fun _ => (trip_int hn).trip) fun he => by
    have : get s = 0 := by simpa [intOptF] using he
    show set (get s) acc = acc
    rw [this, h]

/-! ## Identifiers and agents -/

theorem htmlSafe_append {a b : Str} (ha : HtmlSafe html a) (hb : HtmlSafe html b) : HtmlSafe html (a ++ b) := by
  intro h c hc
  rcases List.mem_append.1 hc with hc | hc
  · exact ha h c hc
  · exact hb h c hc

theorem htmlSafe_of {a : Str} (h : ∀ c ∈ a, c ≠ '<' ∧ c ≠ '>' ∧ c ≠ '&') : HtmlSafe html a := fun _ => h

theorem trip_elementId {z id : Str} (h : JsonId html g!"SPDXRef-" id) : TripN html elementIdCodec z id id := by
  have hp : Plain (spdxRefPrefix ++ id) := plain_append.2 ⟨plain_spdxRef, h.plain⟩
  have e : elementIdToJson id = quoted (spdxRefPrefix ++ id) := by
    unfold elementIdToJson
    rw [prefixId_of_no_prefix (pre := spdxRefPrefix) h.bare, jsonQuote_plain hp]
  refine trip_text (t := spdxRefPrefix ++ id) (by rw [e]) (htmlSafe_append (htmlSafe_of (by decide)) h.safe) ?_
  rw [← e]
  exact C15_elementId_round_trip id h.plain h.nonempty h.bare

theorem trip_documentId {z id : Str} (h : JsonId html g!"DocumentRef-" id) : TripN html documentIdCodec z id id := by
  have hp : Plain (documentRefPrefix ++ id) := plain_append.2 ⟨plain_documentRef, h.plain⟩
  have e : documentIdToJson id = quoted (documentRefPrefix ++ id) := by
    unfold documentIdToJson
    rw [prefixId_of_no_prefix (pre := documentRefPrefix) h.bare, jsonQuote_plain hp]
  refine trip_text (t := documentRefPrefix ++ id) (by rw [e]) (htmlSafe_append (htmlSafe_of (by decide)) h.safe) ?_
  rw [← e]
  exact C16_documentId_round_trip id h.plain h.nonempty h.bare

theorem trip_docElementId {r : DocElementID} (h : JsonRefIn html r) : TripN html docElementIdCodec {} r r := by
  obtain ⟨hr, hs1, hs2⟩ := h
  cases hr with
  | none => exact trip_text (t := g!"NONE") (by decide) (htmlSafe_of (by decide)) (by decide)
  | noassertion => exact trip_text (t := g!"NOASSERTION") (by decide) (htmlSafe_of (by decide)) (by decide)
  | element e hp hne hb =>
    have hpl : Plain (spdxRefPrefix ++ e) := plain_append.2 ⟨plain_spdxRef, hp⟩
    refine trip_text (t := spdxRefPrefix ++ e) ?_ (htmlSafe_append (htmlSafe_of (by decide)) hs2) ?_
    · simp only [docElementIdToJson, ne_eq, not_true_eq_false, false_and, if_false, hne,
        not_false_eq_true, if_true]
      rw [prefixId_of_no_prefix (pre := spdxRefPrefix) hb, jsonQuote_plain hpl]
    · exact (C17_decoding _ _ hpl).2 (.element e hne)
  | external d e hp hne hc hb hp' hne' hb' =>
    have e1 : documentRefPrefix ++ d ++ g!":" ++ (spdxRefPrefix ++ e) =
        g!"DocumentRef-" ++ d ++ g!":SPDXRef-" ++ e := by simp [documentRefPrefix, spdxRefPrefix]
    have hpl : Plain (g!"DocumentRef-" ++ d ++ g!":SPDXRef-" ++ e) :=
      plain_append.2 ⟨plain_append.2 ⟨plain_append.2 ⟨by decide, hp⟩, by decide⟩, hp'⟩
    refine trip_text (t := g!"DocumentRef-" ++ d ++ g!":SPDXRef-" ++ e) ?_
      (htmlSafe_append (htmlSafe_append (htmlSafe_append (htmlSafe_of (by decide)) hs1) (htmlSafe_of (by decide))) hs2) ?_
    · simp only [docElementIdToJson, ne_eq, hne, hne', not_false_eq_true, and_self, if_true]
      rw [prefixId_of_no_prefix (pre := spdxRefPrefix) hb',
        prefixId_of_no_prefix (pre := documentRefPrefix) hb, e1, jsonQuote_plain hpl]
    · exact (C17_decoding _ _ hpl).2 (.external d e hne hc hne')

theorem htmlSafe_agent {k n : Str} (hk : HtmlSafe html k) (hn : HtmlSafe html n) : HtmlSafe html (k ++ g!": " ++ n) :=
  htmlSafe_append (htmlSafe_append hk (htmlSafe_of (by decide))) hn

theorem trip_creator {z c : Creator} (h : JsonCreator html c) : TripN html creatorCodec z c c := by
  have hp := plain_agent h.agent.plainKind h.agent.plainName
  have e : creatorToJson c = quoted (c.creatorType ++ g!": " ++ c.creator) := by
    simp only [creatorToJson, ne_eq, h.named, not_false_eq_true, if_true, jsonQuote_plain hp]
  refine trip_text (by rw [e]) (htmlSafe_agent h.safeKind h.safeName) ?_
  rw [← e]
  exact C20_creator_round_trip c h.named h.agent

theorem trip_annotator {z : Annotator} {a : Annotation} (h : JsonAnnotation html a) : TripN html annotatorCodec z a.annotator a.annotator := by
  have hp := plain_agent h.agent.plainKind h.agent.plainName
  have e : annotatorToJson a.annotator = quoted (a.annotator.annotatorType ++ g!": " ++ a.annotator.annotator) := by
    simp only [annotatorToJson, ne_eq, h.named, not_false_eq_true, if_true, jsonQuote_plain hp]
  refine trip_text (by rw [e]) (htmlSafe_agent h.safeKind h.safeName) ?_
  rw [← e]
  exact C20_annotator_round_trip _ h.named h.agent

theorem trip_supplier {s : Supplier} (h : JsonPartyIn html s.supplierType s.supplier) : TripN html supplierCodec {} s s := by
  obtain ⟨data, h1, h2⟩ := C19_supplier_round_trip s h.party
  obtain ⟨name, kind⟩ := s
  rcases h.party with ⟨hk, hn⟩ | ⟨hk, hn, hna, ha⟩
  · simp only at hk hn
    subst hk; subst hn
    exact trip_text (t := g!"NOASSERTION") (by decide) (htmlSafe_of (by decide)) (by decide)
  · have e : supplierToJson ⟨name, kind⟩ = .ok (quoted (kind ++ g!": " ++ name)) := by
      simp only [supplierToJson, show name ≠ g!"NOASSERTION" from hna, if_false, ne_eq, show kind ≠ [] from hk, show name ≠ [] from hn, not_false_eq_true, and_self, if_true,
        jsonQuote_plain (plain_agent ha.plainKind ha.plainName)]
    refine trip_text e (htmlSafe_agent h.safeKind h.safeName) ?_
    rw [e] at h1
    cases h1
    exact h2

theorem trip_originator {s : Originator} (h : JsonPartyIn html s.originatorType s.originator) : TripN html originatorCodec {} s s := by
  obtain ⟨data, h1, h2⟩ := C19_originator_round_trip s h.party
  obtain ⟨name, kind⟩ := s
  rcases h.party with ⟨hk, hn⟩ | ⟨hk, hn, hna, ha⟩
  · simp only at hk hn
    subst hk; subst hn
    exact trip_text (t := g!"NOASSERTION") (by decide) (htmlSafe_of (by decide)) (by decide)
  · have e : originatorToJson ⟨name, kind⟩ = .ok (quoted (kind ++ g!": " ++ name)) := by
      simp only [originatorToJson, show name ≠ g!"NOASSERTION" from hna, if_false, ne_eq, show kind ≠ [] from hk, show name ≠ [] from hn, not_false_eq_true, and_self, if_true,
        jsonQuote_plain (plain_agent ha.plainKind ha.plainName)]
    refine trip_text e (htmlSafe_agent h.safeKind h.safeName) ?_
    rw [e] at h1
    cases h1
    exact h2

/-! ## Structs -/

theorem trip_checksum {c : Checksum} : TripN html checksumCodec {} c c :=
  trip_struct (by decide) <| fieldsTrip_cons ft_str <| fieldsTrip_cons ft_str fieldsTrip_nil

theorem trip_code {c : VerificationCode} : TripN html codeCodec {} c c :=
  trip_struct (by decide) <| fieldsTrip_cons ft_str <| fieldsTrip_cons (ft_strsOpt rfl) fieldsTrip_nil

theorem trip_pointer {p : RangePointer} (h : JsonPointer html p) : TripN html pointerCodec {} p p :=
  trip_struct (by decide) <| fieldsTrip_cons (ft_intOpt h.offset rfl) <| fieldsTrip_cons (ft_intOpt h.line rfl) <|
    fieldsTrip_cons (ft_codec (trip_elementId h.file).trip) fieldsTrip_nil

theorem trip_range {r : SnippetRange} (h : JsonPointer html r.startPointer ∧ JsonPointer html r.endPointer) :
    TripN html rangeCodec {} r r :=
  trip_struct (by decide) <| fieldsTrip_cons (ft_codec (trip_pointer h.1).trip) <|
    fieldsTrip_cons (ft_codec (trip_pointer h.2).trip) fieldsTrip_nil

theorem trip_same {β : Type} {c : Codec β} {zero : β} {z l : List β} (h : ∀ b ∈ l, Trip html c zero b b) :
    Trip html (listCodec zero c) z l l := by
  have := trip_list (html := html) (c := c) (zero := zero) (g := id) (z := z) (l := l) h
  rwa [List.map_id] at this

theorem trip_externalDoc {r : ExternalDocumentRef} (h : JsonId html g!"DocumentRef-" r.documentRefID) :
    TripN html externalDocCodec {} r r :=
  trip_struct (by decide) <| fieldsTrip_cons (ft_codec (trip_documentId h).trip) <| fieldsTrip_cons ft_str <|
    fieldsTrip_cons (ft_codec trip_checksum.trip) fieldsTrip_nil

theorem trip_creationInfo {i : CreationInfo} (h : ∀ c ∈ i.creators, JsonCreator html c) :
    TripN html creationInfoCodec {} i i :=
  trip_struct (by decide) <| fieldsTrip_cons (ft_strOpt rfl) <|
    fieldsTrip_cons (ft_codec (trip_same fun c hc => (trip_creator (h c hc)).trip)) <|
    fieldsTrip_cons ft_str <| fieldsTrip_cons (ft_strOpt rfl) fieldsTrip_nil

theorem trip_annotation {a : Annotation} (h : JsonAnnotation html a) : TripN html annotationCodec {} a (keptAnnotation a) :=
  trip_struct (by decide) <| fieldsTrip_cons (ft_codec (trip_annotator h).trip) <| fieldsTrip_cons ft_str <|
    fieldsTrip_cons ft_str <| fieldsTrip_cons ft_str fieldsTrip_nil

theorem trip_relationship {r : Relationship} (h : JsonRefIn html r.refA ∧ JsonRefIn html r.refB) :
    TripN html relationshipCodec {} r r :=
  trip_struct (by decide) <| fieldsTrip_cons (ft_codec (trip_docElementId h.1).trip) <|
    fieldsTrip_cons (ft_codec (trip_docElementId h.2).trip) <| fieldsTrip_cons ft_str <|
    fieldsTrip_cons (ft_strOpt rfl) fieldsTrip_nil

theorem trip_otherLicense {l : OtherLicense} : TripN html otherLicenseCodec {} l l :=
  trip_struct (by decide) <| fieldsTrip_cons ft_str <| fieldsTrip_cons ft_str <| fieldsTrip_cons (ft_strOpt rfl) <|
    fieldsTrip_cons (ft_strsOpt rfl) <| fieldsTrip_cons (ft_strOpt rfl) fieldsTrip_nil

theorem trip_artifact {a : ArtifactOfProject} : TripN html artifactCodec {} a a :=
  trip_struct (by decide) <| fieldsTrip_cons ft_str <| fieldsTrip_cons ft_str <| fieldsTrip_cons ft_str fieldsTrip_nil

theorem trip_snippet (v : Version) {s : Snippet} (h : JsonSnippet html s) : TripN html (snippetCodec v) {} s (keptSnippet s) :=
  trip_struct (by cases v <;> decide) <| fieldsTrip_cons (ft_codec (trip_elementId h.id).trip) <|
    fieldsTrip_cons (ft_codec (trip_elementId h.fromFile).trip) <|
    fieldsTrip_cons (ft_codec (trip_same fun r hr => (trip_range (h.ranges r hr)).trip)) <|
    fieldsTrip_cons (ft_strOpt23 rfl) <| fieldsTrip_cons (ft_strsOpt rfl) <| fieldsTrip_cons (ft_strOpt rfl) <|
    fieldsTrip_cons ft_str <| fieldsTrip_cons (ft_strOpt rfl) <| fieldsTrip_cons (ft_strOpt rfl) fieldsTrip_nil

/-! ## Files and packages -/

theorem trip_fileFields (v : Version) {f : FileV} (h : JsonFile html f) : FieldsTrip html f (fileFields v) {} (keptFile v f) := by
  have ha : ∀ z, Trip html (listCodec {} annotationCodec) z f.annotations (f.annotations.map keptAnnotation) :=
    fun z => trip_list fun a ha => (trip_annotation (h.annotations a ha)).trip
  have hp : ∀ z, Trip html (ptrListCodec {} artifactCodec) z f.artifactOfProjects f.artifactOfProjects := fun z => by
    have := trip_ptrList (html := html) (c := artifactCodec) (zero := {}) (g := id) (z := z) (l := f.artifactOfProjects) fun b _ => trip_artifact
    rwa [List.map_id] at this
  have hp' : ∀ z, Trip html (ptrListCodec {} artifactCodec) z f.artifactOfProjects (f.artifactOfProjects.map id) := fun z => by
    rw [List.map_id]; exact hp z
  have hm : (f.artifactOfProjects.map id) = f.artifactOfProjects := List.map_id _
  cases v with
  | v21 =>
    exact fieldsTrip_cons ft_str <| fieldsTrip_cons (ft_codec (trip_elementId h.id).trip) <| fieldsTrip_cons (ft_strsOpt rfl) <|
      fieldsTrip_cons (ft_codec (trip_same fun c _ => trip_checksum.trip)) <| fieldsTrip_cons (ft_strOpt23 rfl) <|
      fieldsTrip_cons (ft_strsOpt' rfl) <| fieldsTrip_cons (ft_strOpt rfl) <| fieldsTrip_cons ft_str <|
      fieldsTrip_cons (ft_strOpt rfl) <| fieldsTrip_cons (ft_strOpt rfl) <| fieldsTrip_cons (ft_strsOpt rfl) <|
      fieldsTrip_cons (ft_listOpt (ha _) rfl) fieldsTrip_nil
  | v22 =>
    exact fieldsTrip_cons ft_str <| fieldsTrip_cons (ft_codec (trip_elementId h.id).trip) <| fieldsTrip_cons (ft_strsOpt rfl) <|
      fieldsTrip_cons (ft_codec (trip_same fun c _ => trip_checksum.trip)) <| fieldsTrip_cons (ft_strOpt23 rfl) <|
      fieldsTrip_cons (ft_strsOpt' rfl) <| fieldsTrip_cons (ft_strOpt rfl) <| fieldsTrip_cons ft_str <|
      fieldsTrip_cons (ft_strOpt rfl) <| fieldsTrip_cons (ft_strOpt rfl) <| fieldsTrip_cons (ft_strsOpt rfl) <|
      fieldsTrip_cons (ft_strsOpt rfl) <| fieldsTrip_cons (ft_listOpt (ha _) rfl) fieldsTrip_nil
  | v23 =>
    have e : keptFile .v23 f = { keptFile .v23 f with artifactOfProjects := f.artifactOfProjects.map id } := by
      rw [hm]; rfl
    rw [e]
    exact fieldsTrip_cons ft_str <| fieldsTrip_cons (ft_codec (trip_elementId h.id).trip) <| fieldsTrip_cons (ft_strsOpt rfl) <|
      fieldsTrip_cons (ft_codec (trip_same fun c _ => trip_checksum.trip)) <| fieldsTrip_cons (ft_strOpt23 rfl) <|
      fieldsTrip_cons (ft_strsOpt' rfl) <| fieldsTrip_cons (ft_strOpt rfl) <| fieldsTrip_cons ft_str <|
      fieldsTrip_cons (ft_listOpt (hp' _) rfl) <|
      fieldsTrip_cons (ft_strOpt rfl) <| fieldsTrip_cons (ft_strOpt rfl) <| fieldsTrip_cons (ft_strsOpt rfl) <|
      fieldsTrip_cons (ft_strsOpt rfl) <| fieldsTrip_cons (ft_strsOpt rfl) <| fieldsTrip_cons (ft_listOpt (ha _) rfl) fieldsTrip_nil

theorem keys_file (v : Version) : KeysDiffer ((fileFields v).map (·.key)) := by cases v <;> decide

theorem trip_file (v : Version) {f : FileV} (h : JsonFile html f) : TripN html (fileCodec v) {} f (keptFile v f) :=
  trip_struct (keys_file v) (trip_fileFields v h)

theorem trip_externalRefFields (r : PackageExternalRef) : TripN html (structCodec externalRefFields) {} r r :=
  trip_struct (by decide) <| fieldsTrip_cons ft_str <| fieldsTrip_cons ft_str <| fieldsTrip_cons ft_str <|
    fieldsTrip_cons (ft_strOpt rfl) fieldsTrip_nil

theorem replaceChar_back (s : Str) : replaceChar '_' '-' (replaceChar '-' '_' s) = replaceChar '_' '-' s := by
  unfold replaceChar
  rw [List.map_map]
  refine List.map_congr_left fun c _ => ?_
  simp only [Function.comp]
  by_cases h : c = '-'
  · subst h; decide
  · rw [if_neg h]

theorem replaceChar_twice (s : Str) : replaceChar '_' '-' (replaceChar '_' '-' s) = replaceChar '_' '-' s := by
  unfold replaceChar
  rw [List.map_map]
  refine List.map_congr_left fun c _ => ?_
  simp only [Function.comp]
  by_cases h : c = '_'
  · subst h; decide
  · rw [if_neg h, if_neg h]

theorem trip_externalRef (v : Version) {r : PackageExternalRef} : TripN html (externalRefCodec v) {} r (keptRef v r) := by
  cases v with
  | v21 => exact trip_externalRefFields r
  | v22 =>
    obtain ⟨j, h1, h2, h3⟩ := trip_externalRefFields (html := html) { r with category := replaceChar '-' '_' r.category }
    refine ⟨j, h1, h2, fun k hk => ?_⟩
    simp only [externalRefCodec, h3 k hk, Res.bind_ok, replaceChar_back]
    rfl
  | v23 =>
    obtain ⟨j, h1, h2, h3⟩ := trip_externalRefFields (html := html) { r with category := replaceChar '_' '-' r.category }
    refine ⟨j, h1, h2, fun k hk => ?_⟩
    simp only [externalRefCodec, h3 k hk, Res.bind_ok, replaceChar_twice]
    rfl

theorem ft_bool {k : Str} {b : Bool} {get : σ → Bool} {set : Bool → σ → σ} {s acc : σ} (h : set false acc = acc) :
    FieldTrip html { β := Bool, key := k, get, set, isEmpty := fun x => b && !x, codec := boolCodec } s acc (set (get s) acc) :=
  fieldTrip_of (f := { β := Bool, key := k, get, set, isEmpty := fun x => b && !x, codec := boolCodec })
    (fun _ => (trip_bool html _ _).trip) fun he => by
      have h1 := (Bool.and_eq_true_iff.1 he).2
      have : get s = false := by simpa using h1
      show set (get s) acc = acc
      rw [this, h]

/-- A package after the fields before the verification code. -/
def partPackage (p : PackageV) : PackageV :=
  { name := p.name, spdxId := p.spdxId, version := p.version, fileName := p.fileName, supplier := p.supplier,
    originator := p.originator, downloadLocation := p.downloadLocation, filesAnalyzed := p.filesAnalyzed }

/-- A package as its fields are decoded. -/
def rawPackage (v : Version) (p : PackageV) : PackageV := { keptPackage v p with filesAnalyzedTagPresent := false }

theorem trip_packageA (v : Version) {p : PackageV} (h : JsonPackage html p) : FieldsTrip html p (packageFieldsA v) {} (partPackage p) :=
  fieldsTrip_cons ft_str <| fieldsTrip_cons (ft_codec (trip_elementId h.id).trip) <| fieldsTrip_cons (ft_strOpt rfl) <|
    fieldsTrip_cons (ft_strOpt rfl) <|
    fieldsTrip_cons (ft_ptrOpt (fun s hs => (trip_ptr (trip_supplier (h.supplier s hs))).trip) rfl) <|
    fieldsTrip_cons (ft_ptrOpt (fun s hs => (trip_ptr (trip_originator (h.originator s hs))).trip) rfl) <|
    fieldsTrip_cons ft_str <| fieldsTrip_cons (ft_bool rfl) fieldsTrip_nil

theorem trip_packageB (v : Version) {p : PackageV} {c : Option VerificationCode} (h : JsonPackage html p) :
    FieldsTrip html p (packageFieldsB v) { partPackage p with verificationCode := c } { rawPackage v p with verificationCode := c } := by
  have ha : ∀ z, Trip html (listCodec {} annotationCodec) z p.annotations (p.annotations.map keptAnnotation) :=
    fun z => trip_list fun a ha => (trip_annotation (h.annotations a ha)).trip
  have hf : ∀ z, Trip html (ptrListCodec {} (fileCodec v)) z p.files (p.files.map (keptFile v)) :=
    fun z => trip_ptrList fun f hf => trip_file v (h.files f hf)
  have hr : ∀ z, Trip html (ptrListCodec {} (externalRefCodec v)) z p.externalRefs (p.externalRefs.map (keptRef v)) :=
    fun z => trip_ptrList fun f _ => trip_externalRef v
  have hc : ∀ z, Trip html (listCodec {} checksumCodec) z p.checksums (p.checksums.map id) :=
    fun z => trip_list fun f _ => trip_checksum.trip
  have e : rawPackage v p = { rawPackage v p with checksums := p.checksums.map id } := by rw [List.map_id]; rfl
  rw [e]
  cases v with
  | v21 =>
    exact fieldsTrip_cons (ft_listOpt (hc _) rfl) <| fieldsTrip_cons (ft_strOpt rfl) <| fieldsTrip_cons (ft_strOpt rfl) <|
      fieldsTrip_cons (ft_strOpt23 rfl) <| fieldsTrip_cons (ft_strsOpt' rfl) <| fieldsTrip_cons (ft_strOpt23 rfl) <|
      fieldsTrip_cons (ft_strOpt rfl) <| fieldsTrip_cons (ft_strOpt23 rfl) <| fieldsTrip_cons (ft_strOpt rfl) <|
      fieldsTrip_cons (ft_strOpt rfl) <| fieldsTrip_cons (ft_strOpt rfl) <| fieldsTrip_cons (ft_listOpt (hr _) rfl) <|
      fieldsTrip_cons (ft_listOpt (hf _) rfl) <| fieldsTrip_cons (ft_listOpt (ha _) rfl) fieldsTrip_nil
  | v22 =>
    exact fieldsTrip_cons (ft_listOpt (hc _) rfl) <| fieldsTrip_cons (ft_strOpt rfl) <| fieldsTrip_cons (ft_strOpt rfl) <|
      fieldsTrip_cons (ft_strOpt23 rfl) <| fieldsTrip_cons (ft_strsOpt' rfl) <| fieldsTrip_cons (ft_strOpt23 rfl) <|
      fieldsTrip_cons (ft_strOpt rfl) <| fieldsTrip_cons (ft_strOpt23 rfl) <| fieldsTrip_cons (ft_strOpt rfl) <|
      fieldsTrip_cons (ft_strOpt rfl) <| fieldsTrip_cons (ft_strOpt rfl) <| fieldsTrip_cons (ft_listOpt (hr _) rfl) <|
      fieldsTrip_cons (ft_strsOpt rfl) <|
      fieldsTrip_cons (ft_listOpt (hf _) rfl) <| fieldsTrip_cons (ft_listOpt (ha _) rfl) fieldsTrip_nil
  | v23 =>
    exact fieldsTrip_cons (ft_listOpt (hc _) rfl) <| fieldsTrip_cons (ft_strOpt rfl) <| fieldsTrip_cons (ft_strOpt rfl) <|
      fieldsTrip_cons (ft_strOpt23 rfl) <| fieldsTrip_cons (ft_strsOpt' rfl) <| fieldsTrip_cons (ft_strOpt23 rfl) <|
      fieldsTrip_cons (ft_strOpt rfl) <| fieldsTrip_cons (ft_strOpt23 rfl) <| fieldsTrip_cons (ft_strOpt rfl) <|
      fieldsTrip_cons (ft_strOpt rfl) <| fieldsTrip_cons (ft_strOpt rfl) <| fieldsTrip_cons (ft_listOpt (hr _) rfl) <|
      fieldsTrip_cons (ft_strsOpt rfl) <| fieldsTrip_cons (ft_strOpt rfl) <| fieldsTrip_cons (ft_strOpt rfl) <|
      fieldsTrip_cons (ft_strOpt rfl) <| fieldsTrip_cons (ft_strOpt rfl) <|
      fieldsTrip_cons (ft_listOpt (hf _) rfl) <| fieldsTrip_cons (ft_listOpt (ha _) rfl) fieldsTrip_nil

theorem codeOption_codeValue (c : Option VerificationCode) :
    codeOption (codeValue c) = if c = some {} then none else c := by
  cases c with
  | none => rfl
  | some c =>
    by_cases h : c = {}
    · subst h; decide
    · rw [if_neg (by simpa using h)]
      exact if_neg h

theorem rawPackage_code21 (p : PackageV) : { rawPackage .v21 p with verificationCode := codeOption (codeValue p.verificationCode) } = rawPackage .v21 p := by
  rw [codeOption_codeValue]
  simp only [rawPackage, keptPackage]
  simp

theorem rawPackage_code22 (p : PackageV) : { rawPackage .v22 p with verificationCode := codeOption (codeValue p.verificationCode) } = rawPackage .v22 p := by
  rw [codeOption_codeValue]
  simp only [rawPackage, keptPackage]
  simp

theorem ft_code (v : Version) {p : PackageV} : ∃ c, FieldTrip html (codeField v) p (partPackage p) { partPackage p with verificationCode := c } ∧
    { rawPackage v p with verificationCode := c } = rawPackage v p := by
  cases v with
  | v21 => exact ⟨_, ft_codec trip_code.trip, rawPackage_code21 p⟩
  | v22 => exact ⟨_, ft_codec trip_code.trip, rawPackage_code22 p⟩
  | v23 =>
    refine ⟨_, ft_ptrOpt (fun c _ => (trip_ptr trip_code).trip) rfl, ?_⟩
    simp [rawPackage, keptPackage]

theorem keys_package (v : Version) : KeysDiffer ((packageFields v).map (·.key)) := by cases v <;> decide

theorem trip_packageFields (v : Version) {p : PackageV} (h : JsonPackage html p) :
    FieldsTrip html p (packageFields v) {} (rawPackage v p) := by
  obtain ⟨c, h1, h2⟩ := ft_code (html := html) v (p := p)
  have := fieldsTrip_append (trip_packageA v h) (fieldsTrip_cons h1 (trip_packageB v (c := c) h))
  rwa [h2] at this

/-- A package whose verification code is left out. -/
def packageFieldsNoCode : List (Field PackageV) :=
  packageFieldsA .v22 ++ { codeField .v22 with isEmpty := fun _ => true } :: packageFieldsB .v22

theorem decodeFields_append {fs gs : List (Field σ)} {es : List (Str × Json)} (s : σ) :
    decodeFields es (fs ++ gs) s = (decodeFields es fs s).bind (decodeFields es gs) := by
  induction fs generalizing s with
  | nil => rfl
  | cons f fs ih =>
    simp only [List.cons_append, decodeFields]
    cases decodeEntries f es s with
    | ok t => exact ih t
    | err => rfl
    | panic => rfl

theorem decodeEntries_isEmpty {f : Field σ} {e : f.β → Bool} (es : List (Str × Json)) (s : σ) :
    decodeEntries { f with isEmpty := e } es s = decodeEntries f es s := by
  induction es generalizing s with
  | nil => rfl
  | cons x es ih =>
    simp only [decodeEntries]
    by_cases h : sameKey f.key x.1 = true
    · rw [if_pos h, if_pos h]
      cases f.codec.dec x.2 (f.get s) with
      | ok b => exact ih _
      | err => rfl
      | panic => rfl
    · rw [if_neg h, if_neg h]
      exact ih s

theorem dec_noCode (k : Json) (s : PackageV) : (structCodec packageFieldsNoCode).dec k s = (structCodec (packageFields .v22)).dec k s := by
  cases k with
  | obj es =>
    simp only [structCodec, packageFieldsNoCode, packageFields, decodeFields_append]
    cases decodeFields es (packageFieldsA .v22) s with
    | ok t =>
      show decodeFields es ({ codeField .v22 with isEmpty := fun _ => true } :: _) t = decodeFields es (codeField .v22 :: _) t
      simp only [decodeFields, decodeEntries_isEmpty]
    | err => rfl
    | panic => rfl
  | _ => rfl

theorem filter_keys {es : List (Str × Json)} (h : codeKey ∉ es.map (·.1)) : (es.filter fun e => e.1 ≠ codeKey) = es := by
  rw [List.filter_eq_self]
  intro e he
  simp only [ne_eq, decide_eq_true_eq]
  intro e'
  exact h (List.mem_map.2 ⟨e, he, e'⟩)

/-- The encoded package is like an object with some of the fields, all decoded to the raw package. -/
theorem encode_package (so : Sorter) (v : Version) {p : PackageV} (h : JsonPackage html p) :
    ∃ j es, encodePackage so v (p, []) = .ok j ∧ Like false (.obj es) j ∧
      (es.map (·.1)).Sublist ((packageFields v).map (·.key)) ∧
      (v ≠ .v21 → (g!"filesAnalyzed", .bool p.filesAnalyzed) ∈ es) ∧
      ∀ k, Like html (.obj es) k → (structCodec (packageFields v)).dec k {} = .ok (rawPackage v p) := by
  have full : ∀ es, encodeFields p (packageFields v) = .ok es → v ≠ .v21 → (g!"filesAnalyzed", Json.bool p.filesAnalyzed) ∈ es := by
    intro es he hv
    have hm : ∃ f ∈ packageFieldsA v, f.key = g!"filesAnalyzed" ∧ f.isEmpty (f.get p) = false ∧
        f.codec.enc (f.get p) = .ok (.bool p.filesAnalyzed) :=
      ⟨_, List.mem_of_getElem? (show (packageFieldsA v)[7]? = some _ from rfl), rfl, by simp [hv], rfl⟩
    obtain ⟨f, hf, hk, h0, he'⟩ := hm
    obtain ⟨j, h1, h2⟩ := encode_mem he (List.mem_append_left _ hf) h0
    rw [hk] at h2
    rw [he'] at h1
    cases h1
    exact h2
  obtain ⟨es, ht⟩ := trip_packageFields v h
  have henc := trips_encode ht
  by_cases hc : v = .v22 ∧ codeValue p.verificationCode = {}
  · obtain ⟨rfl, hc⟩ := hc
    obtain ⟨esA, hA⟩ := trip_packageA .v22 h
    obtain ⟨esB, hB⟩ := trip_packageB .v22 (c := none) h
    have hB' : Trips html p (packageFieldsB .v22) (partPackage p) (rawPackage .v22 p) esB := by
      have e : { rawPackage .v22 p with verificationCode := none } = rawPackage .v22 p := by
        rw [← rawPackage_code22, hc]; rfl
      rw [e] at hB
      exact hB
    have h1 : Trips html p packageFieldsNoCode {} (rawPackage .v22 p) (esA ++ esB) := trips_append hA (.skip rfl hB')
    obtain ⟨jc, hj, _⟩ := trip_code (html := html) (c := codeValue p.verificationCode)
    have h2 : encodeFields p (packageFields .v22) = .ok (esA ++ (codeKey, jc) :: esB) := by
      have : ∀ (fs gs : List (Field PackageV)) (a b : List (Str × Json)), encodeFields p fs = .ok a → encodeFields p gs = .ok b →
          encodeFields p (fs ++ gs) = .ok (a ++ b) := by
        intro fs
        induction fs with
        | nil => intro gs a b ha hb; cases ha; exact hb
        | cons f fs ih =>
          intro gs a b ha hb
          rw [encodeFields] at ha
          rw [List.cons_append, encodeFields]
          split at ha
          · next hf => rw [if_pos hf]; exact ih gs a b ha hb
          · next hf =>
            rw [if_neg hf]
            cases hx : f.codec.enc (f.get p) with
            | err => rw [hx] at ha; cases ha
            | panic => rw [hx] at ha; cases ha
            | ok x =>
              rw [hx, Res.bind_ok] at ha
              cases hy : encodeFields p fs with
              | err => rw [hy] at ha; cases ha
              | panic => rw [hy] at ha; cases ha
              | ok y =>
                rw [hy, Res.bind_ok] at ha
                cases ha
                rw [Res.bind_ok, ih gs y b hy hb]
                rfl
      refine this _ _ _ _ (trips_encode hA) ?_
      rw [encodeFields]
      have : (codeField .v22).isEmpty ((codeField .v22).get p) = false := rfl
      rw [if_neg (by simp [this])]
      have : (codeField .v22).codec.enc ((codeField .v22).get p) = .ok jc := hj
      rw [this, Res.bind_ok, trips_encode hB']
      rfl
    have hk : (esA ++ esB).map (·.1) |>.Sublist (packageFieldsNoCode.map (·.key)) := trips_keys h1
    have hA' : codeKey ∉ esA.map (·.1) := fun hm => absurd ((trips_keys hA).subset hm) (by decide)
    have hB'' : codeKey ∉ esB.map (·.1) := fun hm => absurd ((trips_keys hB).subset hm) (by decide)
    have hf : ((esA ++ (codeKey, jc) :: esB).filter fun e => e.1 ≠ codeKey) = esA ++ esB := by
      rw [List.filter_append, List.filter_cons, if_neg (by simp), filter_keys hA', filter_keys hB'']
    refine ⟨_, esA ++ esB, ?_, like_sort so _, hk, fun hv => ?_, fun k hkk => ?_⟩
    · simp only [encodePackage, h2, Res.bind_ok, if_pos hc, hf]
    · have := full _ h2 hv
      rw [List.mem_append, List.mem_cons] at this
      rcases this with h | h | h
      · exact List.mem_append_left _ h
      · exact absurd (show g!"filesAnalyzed" = codeKey from congrArg Prod.fst h) (by decide)
      · exact List.mem_append_right _ h
    · rw [← dec_noCode]
      exact trips_obj h1 (by decide) k hkk
  · refine ⟨.obj es, es, ?_, like_refl _, trips_keys ht, full es henc, trips_obj ht (keys_package v)⟩
    cases v with
    | v22 =>
      have hc' : ¬ codeValue p.verificationCode = {} := fun e => hc ⟨rfl, e⟩
      simp only [encodePackage, henc, Res.bind_ok, if_neg hc']
    | v21 => simp only [encodePackage, structCodec, henc, Res.bind_ok]
    | v23 => simp only [encodePackage, structCodec, henc, Res.bind_ok]

theorem packageExtras_dec {es : List (Str × Json)} {b : Bool} {v : Version} {k : Json}
    (hs : (es.map (·.1)).Sublist ((packageFields v).map (·.key))) (hm : (g!"filesAnalyzed", .bool b) ∈ es)
    (hk : Like html (.obj es) k) :
    (structCodec packageExtrasFields).dec k {} = .ok { hasFiles := [], filesAnalyzed := some b } := by
  have hd := keysDiffer_sublist hs (keys_package v)
  obtain ⟨gs, j', rfl, h1, _, h3⟩ := like_entry hk hd hm
  obtain ⟨gs', e, h4⟩ := like_absent (key := g!"hasFiles") hk hd fun x hx => by
    have := hs.subset hx
    revert this
    generalize x = y
    have : ∀ y ∈ (packageFields v).map (·.key), sameKey g!"hasFiles" y = false := by cases v <;> decide
    exact this y
  cases e
  cases h1
  simp only [structCodec, packageExtrasFields, decodeFields]
  rw [decodeEntries_filter]
  simp only [codecF, h4, decodeEntries, Res.bind_ok]
  rw [decodeEntries_filter]
  simp only [h3, decodeEntries, sameKey_self, if_true]
  rfl

theorem trip_package (so : Sorter) (v : Version) {p : PackageV} (h : JsonPackage html p) :
    TripN html (packageCodec so v) ({}, []) (p, []) (keptPackage v p, []) := by
  obtain ⟨j, es, h1, h2, h3, h4, h5⟩ := encode_package so v h
  refine ⟨j, h1, (by intro e; rw [e] at h2; cases h2), fun k hk => ?_⟩
  have hk' := like_trans _ h2 hk
  have hd := h5 k hk'
  show decodePackage v k ({}, []) = _
  cases v with
  | v21 =>
    simp only [decodePackage, hd, Res.bind_ok]
    rfl
  | v22 =>
    simp only [decodePackage, hd, Res.bind_ok, packageExtras_dec h3 (h4 (by decide)) hk']
    rfl
  | v23 =>
    simp only [decodePackage, hd, Res.bind_ok, packageExtras_dec h3 (h4 (by decide)) hk']
    rfl

/-! ## Documents -/

/-- The Go document of a document. -/
def rawDoc (d : Doc) : RawDoc :=
  { doc := d, packages := d.packages.map fun p => some (p, []), relationships := d.relationships.map some }

/-- What is decoded before the document is completed. -/
def rawKept (v : Version) (d : Doc) : RawDoc :=
  { doc := { keptDoc v d with packages := [], relationships := [] }
    packages := d.packages.map fun p => some (keptPackage v p, [])
    relationships := d.relationships.map some }

theorem decodeEntries_enc {β : Type} {d : Json → β → Res β} (e1 e2 : β → Res Json) (key : Str) (get : σ → β) (set : β → σ → σ)
    (i : β → Bool) (es : List (Str × Json)) (s : σ) :
    decodeEntries { β, key, get, set, isEmpty := i, codec := { enc := e1, dec := d } } es s =
      decodeEntries { β, key, get, set, isEmpty := i, codec := { enc := e2, dec := d } } es s := by
  induction es generalizing s with
  | nil => rfl
  | cons x es ih =>
    simp only [decodeEntries]
    by_cases h : sameKey key x.1 = true
    · rw [if_pos h, if_pos h]
      cases d x.2 (get s) with
      | ok b => exact ih _
      | err => rfl
      | panic => rfl
    · rw [if_neg h, if_neg h]
      exact ih s

/-- Decoding does not sort. -/
theorem dec_sorter (so so' : Sorter) (v : Version) (k : Json) (s : RawDoc) :
    (structCodec (docFields so v)).dec k s = (structCodec (docFields so' v)).dec k s := by
  have h : ∀ es s, decodeEntries (listOptF (listCodec none (ptrCodec ({}, []) (packageCodec so v))) g!"packages" (·.packages) (fun b (s : RawDoc) => { s with packages := b })) es s =
      decodeEntries (listOptF (listCodec none (ptrCodec ({}, []) (packageCodec so' v))) g!"packages" (·.packages) (fun b (s : RawDoc) => { s with packages := b })) es s :=
    fun es s => decodeEntries_enc _ _ _ _ _ _ es s
  cases k with
  | obj es => simp only [structCodec, docFields, decodeFields, h]
  | _ => rfl

theorem keys_doc (so : Sorter) (v : Version) : KeysDiffer ((docFields so v).map (·.key)) := by
  show KeysDiffer [g!"spdxVersion", g!"dataLicense", g!"SPDXID", g!"name", g!"documentNamespace", g!"externalDocumentRefs",
    g!"comment", g!"creationInfo", g!"packages", g!"files", g!"hasExtractedLicensingInfos", g!"relationships", g!"annotations", g!"snippets"]
  decide

/-- With relationships that may be nil. -/
theorem trip_docFields_with (so : Sorter) (v : Version) {d : Doc} (h : JsonDocument html d) (rels : List (Option Relationship))
    (hrels : ∀ r, some r ∈ rels → JsonRefIn html r.refA ∧ JsonRefIn html r.refB) :
    FieldsTrip html { rawDoc d with relationships := rels } (docFields so v) {} { rawKept v d with relationships := rels } := by
  have hx : ∀ z, Trip html (listCodec {} externalDocCodec) z d.externalDocumentRefs (d.externalDocumentRefs.map id) :=
    fun z => trip_list fun r hr => (trip_externalDoc (h.refs r hr)).trip
  have hi : ∀ z, z = none → Trip html (ptrCodec {} creationInfoCodec) z d.creationInfo d.creationInfo := by
    rintro z rfl
    cases hc : d.creationInfo with
    | none => exact trip_ptr_none
    | some i => exact (trip_ptr (trip_creationInfo (h.creators i hc))).trip
  have hp : ∀ z, Trip html (listCodec none (ptrCodec ({}, []) (packageCodec so v))) z (rawDoc d).packages
      ((rawDoc d).packages.map fun o => o.map fun x => (keptPackage v x.1, [])) := fun z =>
    trip_list fun o ho => by
      obtain ⟨p, hp, rfl⟩ := List.mem_map.1 ho
      exact (trip_ptr (trip_package so v (h.packages p hp))).trip
  have hf : ∀ z, Trip html (ptrListCodec {} (fileCodec v)) z d.files (d.files.map (keptFile v)) :=
    fun z => trip_ptrList fun f hf => trip_file v (h.files f hf)
  have hl : ∀ z, Trip html (ptrListCodec {} otherLicenseCodec) z d.otherLicenses (d.otherLicenses.map id) :=
    fun z => trip_ptrList fun _ _ => trip_otherLicense
  have hr : ∀ z, Trip html (listCodec none (ptrCodec {} relationshipCodec)) z rels (rels.map id) := fun z =>
    trip_list fun o ho => by
      cases o with
      | none => exact trip_ptr_none
      | some r => exact (trip_ptr (trip_relationship (hrels r ho))).trip
  have ha : ∀ z, Trip html (ptrListCodec {} annotationCodec) z d.annotations (d.annotations.map keptAnnotation) :=
    fun z => trip_ptrList fun a ha => trip_annotation (h.annotations a ha)
  have hs : ∀ z, Trip html (listCodec {} (snippetCodec v)) z d.snippets (d.snippets.map keptSnippet) :=
    fun z => trip_list fun s hs => (trip_snippet v (h.snippets s hs)).trip
  have e : { rawKept v d with relationships := rels } =
      { doc := { keptDoc v d with packages := [], relationships := [], externalDocumentRefs := d.externalDocumentRefs.map id, otherLicenses := d.otherLicenses.map id }
        packages := (rawDoc d).packages.map fun o => o.map fun x => (keptPackage v x.1, [])
        relationships := rels.map id : RawDoc } := by
    simp only [rawKept, rawDoc, List.map_id, List.map_map]
    rfl
  rw [e]
  exact fieldsTrip_cons ft_str <| fieldsTrip_cons ft_str <| fieldsTrip_cons (ft_codec (trip_elementId h.id).trip) <|
    fieldsTrip_cons ft_str <| fieldsTrip_cons ft_str <| fieldsTrip_cons (ft_listOpt (hx _) rfl) <|
    fieldsTrip_cons (ft_strOpt rfl) <| fieldsTrip_cons (ft_codec (hi _ rfl)) <| fieldsTrip_cons (ft_listOpt (hp _) rfl) <|
    fieldsTrip_cons (ft_listOpt (hf _) rfl) <| fieldsTrip_cons (ft_listOpt (hl _) rfl) <|
    fieldsTrip_cons (ft_listOpt (hr _) rfl) <| fieldsTrip_cons (ft_listOpt (ha _) rfl) <|
    fieldsTrip_cons (ft_listOpt (hs _) rfl) fieldsTrip_nil

theorem trip_docFields (so : Sorter) (v : Version) {d : Doc} (h : JsonDocument html d) :
    FieldsTrip html (rawDoc d) (docFields so v) {} (rawKept v d) :=
  trip_docFields_with so v h (d.relationships.map some) fun r hr => by
    obtain ⟨r', hr', e⟩ := List.mem_map.1 hr
    cases e
    exact h.relationships r hr'

theorem docExtras_dec {so : Sorter} {es : List (Str × Json)} {v : Version} {k : Json}
    (hs : (es.map (·.1)).Sublist ((docFields so v).map (·.key))) (hk : Like html (.obj es) k) :
    (structCodec docExtrasFields).dec k [] = .ok [] := by
  obtain ⟨gs, rfl, h4⟩ := like_absent (key := g!"documentDescribes") hk (keysDiffer_sublist hs (keys_doc so v)) fun x hx => by
    have := hs.subset hx
    have h : ∀ y ∈ (docFields so v).map (·.key), sameKey g!"documentDescribes" y = false := by
      show ∀ y ∈ [g!"spdxVersion", g!"dataLicense", g!"SPDXID", g!"name", g!"documentNamespace", g!"externalDocumentRefs",
        g!"comment", g!"creationInfo", g!"packages", g!"files", g!"hasExtractedLicensingInfos", g!"relationships", g!"annotations", g!"snippets"], _
      decide
    exact h x this
  simp only [structCodec, docExtrasFields, decodeFields]
  rw [decodeEntries_filter]
  simp only [codecF, h4, decodeEntries, Res.bind_ok]

theorem allSome_map {α β : Type} (f : α → β) (l : List α) : allSome (l.map fun a => some (f a)) = some (l.map f) := by
  induction l with
  | nil => rfl
  | cons a l ih => simp [allSome, ih]

theorem hasFilesRels_nil {α : Type} (f : α → PackageV) (l : List α) : hasFilesRels (l.map fun a => some (f a, [])) = [] := by
  induction l with
  | nil => rfl
  | cons a l ih => simp [hasFilesRels, ih]

theorem decodeDoc_kept (so : Sorter) (v : Version) {d : Doc} {k : Json}
    (h1 : (structCodec (docFields so v)).dec k {} = .ok (rawKept v d))
    (h2 : (structCodec docExtrasFields).dec k [] = .ok []) : decodeDoc so v k = .ok (keptDoc v d) := by
  have e1 : allSome (rawKept v d).packages = some (d.packages.map fun p => (keptPackage v p, [])) := allSome_map _ _
  have e2 : ∀ id, loadRelationships id (rawKept v d).relationships [] (rawKept v d).packages = d.relationships := by
    intro i
    have hh : hasFilesRels (rawKept v d).packages = [] := hasFilesRels_nil _ _
    simp only [loadRelationships, describesRels, List.map_nil, addRels, hh]
    simp [rawKept]
  have e3 : allSome (rawKept v d).relationships = some d.relationships := by
    have := allSome_map (fun r : Relationship => r) d.relationships
    rwa [List.map_id'] at this
  cases v with
  | v21 =>
    simp only [decodeDoc, h1, Res.bind_ok, e1, Res.ofOption_some, e3, List.map_map]
    rfl
  | v22 =>
    simp only [decodeDoc, h1, h2, Res.bind_ok, e1, Res.ofOption_some, e2, List.map_map]
    rfl
  | v23 =>
    simp only [decodeDoc, h1, h2, Res.bind_ok, e1, Res.ofOption_some, e2, List.map_map]
    rfl

theorem unescape_version (html : Bool) (s : Str) {k : Json} (h : Like html (.str (s.flatMap jsonEscapeChar)) k) :
    ∃ raw, k = .str raw ∧ unescape raw = some s := by
  cases h
  exact ⟨_, rfl, unescape_escaped html s⟩

theorem versionNamed_name (v : Version) : versionNamed (versionName v) = some v := by cases v <;> decide

/-- Writing a document, and the version and contents of what is written. -/
theorem json_written (so so' : Sorter) (v : Version) (html : Bool) (d : Doc)
    (hd : JsonDocument html d) (hv : d.spdxVersion = versionName v) :
    ∃ j, writeJson so v html d = .ok j ∧ ∀ k, Like false j k → ∃ gs raw, k = .obj gs ∧
      lastEntry g!"spdxVersion" gs = some (.str raw) ∧ unescape raw = some (versionName v) ∧ decodeDoc so' v k = .ok (keptDoc v d) := by
  obtain ⟨es, ht⟩ := trip_docFields so v hd
  have henc := trips_encode ht
  refine ⟨if html then (Json.obj es).escapeHtml else .obj es, ?_, fun k hk => ?_⟩
  · have : (structCodec (docFields so v)).enc (rawDoc d) = .ok (.obj es) := by
      simp only [structCodec, henc, Res.bind_ok]
    show (do let j ← (structCodec (docFields so v)).enc (rawDoc d); Res.ok (if html then j.escapeHtml else j)) = _
    rw [this, Res.bind_ok]
  · have hk' : Like html (.obj es) k := like_trans' _ (like_write html _) hk
    have hs := trips_keys ht
    have hdiff := keysDiffer_sublist hs (keys_doc so v)
    have hdec : (structCodec (docFields so' v)).dec k {} = .ok (rawKept v d) := by
      have := trips_obj ht (keys_doc so v) k hk'
      rwa [dec_sorter so so'] at this
    obtain ⟨j, h1, h2⟩ := encode_mem (f := strF g!"spdxVersion" (·.doc.spdxVersion) (fun b s => { s with doc := { s.doc with spdxVersion := b } })) henc
      (by simp [docFields]) rfl
    cases h1
    obtain ⟨gs, j', rfl, h3, h4, _⟩ := like_entry hk' hdiff h2
    obtain ⟨raw, rfl, h5⟩ := unescape_version html _ h3
    have h5' : unescape raw = some (versionName v) := by rw [← hv]; exact h5
    have h4' : lastEntry g!"spdxVersion" gs = some (.str raw) := h4
    exact ⟨gs, raw, rfl, h4', h5', decodeDoc_kept so' v hdec (docExtras_dec hs hk')⟩

/-- Writing a document and reading it into a variable of the same version. -/
theorem json_round_trip (so so' : Sorter) (copy : Version → Version → Doc → Doc) (v : Version) (html : Bool) (d : Doc)
    (hd : JsonDocument html d) (hv : d.spdxVersion = versionName v) :
    ∃ j, writeJson so v html d = .ok j ∧ ∀ k, Like false j k → readJsonInto so' copy true v k = .ok (keptDoc v d) := by
  obtain ⟨j, h1, h2⟩ := json_written so so' v html d hd hv
  refine ⟨j, h1, fun k hk => ?_⟩
  obtain ⟨gs, raw, rfl, h3, h4, h5⟩ := h2 k hk
  simp only [readJsonInto, Bool.not_true, Bool.false_eq_true, if_false, h3, h4, Option.bind_some, versionNamed_name]
  rw [h5, Res.bind_ok]
  cases v <;> rfl

end Verif
