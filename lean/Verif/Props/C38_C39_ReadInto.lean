import Verif.Model.ReadInto
import Verif.Spec.ReadInto
import Verif.Props.C05_C10_Parser
import Verif.Props.C35_C37_JsonLoad
import Verif.Lemmas.MeaningInv
import Verif.Lemmas.Sort

/-!
# C38, C39: reading into a document variable; shortening text
-/

namespace Verif
open Spec

theorem versionNamed_iff {name : Str} {v : Version} : versionNamed name = some v ↔ VersionNamed name v := by
  unfold versionNamed VersionNamed
  split
  · rename_i h; subst h; simp [eq_comm]
  · split
    · rename_i h h'; subst h'; simp [eq_comm]
    · split
      · rename_i h h' h''; subst h''; simp [eq_comm]
      · simp_all

theorem convertSteps_converted (copy : Version → Version → Doc → Doc) (v target : Version) (d : Doc) :
    ConvertedTo v target d (convertSteps copy v target d) := by
  unfold ConvertedTo
  cases v <;> cases target <;> simp [convertSteps, VersionNamed, versionName]

theorem statedVersion_first {tvs : List TVPair} (h : ∃ p ∈ tvs, p.tag = g!"SPDXVersion") :
    FirstVersion tvs (statedVersion tvs) := by
  induction tvs with
  | nil => simp at h
  | cons p ps ih =>
    unfold statedVersion
    split
    · rename_i hp
      exact ⟨[], ps, by simp [← hp], by simp⟩
    · rename_i hp
      obtain ⟨q, hq, hq'⟩ := h
      rcases List.mem_cons.1 hq with rfl | hq
      · exact absurd hq' hp
      · obtain ⟨b, a, h1, h2⟩ := ih ⟨q, hq, hq'⟩
        refine ⟨p :: b, a, ?_, ?_⟩
        · rw [List.cons_append, ← h1]
        · intro r hr
          rcases List.mem_cons.1 hr with rfl | hr
          · exact hp
          · exact h2 r hr

theorem statedVersion_none {tvs : List TVPair} (h : ∀ p ∈ tvs, p.tag ≠ g!"SPDXVersion") : statedVersion tvs = [] := by
  induction tvs with
  | nil => rfl
  | cons p ps ih =>
    unfold statedVersion
    rw [if_neg (h p (by simp)), ih fun q hq => h q (by simp [hq])]

theorem firstVersion_stated {tvs : List TVPair} {name : Str} (h : FirstVersion tvs name) : statedVersion tvs = name := by
  obtain ⟨b, a, rfl, hb⟩ := h
  induction b with
  | nil => simp [statedVersion]
  | cons p b ih =>
    rw [List.cons_append, statedVersion, if_neg (hb p (by simp)), ih fun q hq => hb q (by simp [hq])]

theorem stated_iff {tvs : List TVPair} {v : Version} :
    versionNamed (statedVersion tvs) = some v ↔ ∃ name, FirstVersion tvs name ∧ VersionNamed name v := by
  constructor
  · intro h
    by_cases hp : ∃ p ∈ tvs, p.tag = g!"SPDXVersion"
    · exact ⟨_, statedVersion_first hp, versionNamed_iff.1 h⟩
    · rw [statedVersion_none (fun p hp' hh => hp ⟨p, hp', hh⟩)] at h
      simp [versionNamed] at h
  · rintro ⟨name, h1, h2⟩
    rw [firstVersion_stated h1]; exact versionNamed_iff.2 h2

/-- **C38.** Reading tag-value text into a variable succeeds exactly if the text is a list of pairs, the first
`SPDXVersion` pair names a supported version, and the pairs are a document by the rules of that version; the
result is that document, converted to the version of the variable. -/
theorem C38_dispatch (copy : Version → Version → Doc → Doc) (target : Version) (text : Str) :
    (∀ d, readTagValueInto copy true target text = .ok d →
      ∃ tvs name v d0, readTagValues text = .ok tvs ∧ FirstVersion tvs name ∧ VersionNamed name v ∧
        parseTagValues v tvs = .ok (some d0) ∧ ConvertedTo v target d0 d) ∧
    (∀ tvs name v d0, readTagValues text = .ok tvs → FirstVersion tvs name → VersionNamed name v →
      parseTagValues v tvs = .ok (some d0) → ∃ d, readTagValueInto copy true target text = .ok d ∧ ConvertedTo v target d0 d) := by
  constructor
  · intro d h
    unfold readTagValueInto at h
    simp only [Bool.not_true, Bool.false_eq_true, if_false] at h
    rw [bind_eq_ok] at h
    obtain ⟨tvs, htvs, h⟩ := h
    split at h
    · simp at h
    · split at h
      · simp at h
      · rename_i v hv
        rw [bind_eq_ok] at h
        obtain ⟨o, ho, h⟩ := h
        split at h
        · simp at h
        · rename_i d0
          simp only [convertDocument, Bool.not_true, Bool.false_eq_true, if_false, Res.ok.injEq] at h
          subst h
          obtain ⟨name, h1, h2⟩ := stated_iff.1 hv
          exact ⟨tvs, name, v, d0, htvs, h1, h2, ho, convertSteps_converted copy v target d0⟩
  · intro tvs name v d0 h1 h2 h3 h4
    refine ⟨_, ?_, convertSteps_converted copy v target d0⟩
    have hv := stated_iff.2 ⟨name, h2, h3⟩
    have hne : tvs ≠ [] := by
      rintro rfl
      obtain ⟨b, a, hh, -⟩ := h2
      simp at hh
    simp only [readTagValueInto, Bool.not_true, Bool.false_eq_true, if_false, h1, Res.bind_ok, hne, hv, h4, convertDocument]

/-- **C38.** A variable that is not given by pointer is refused, whatever the text. -/
theorem C38_pointer (copy : Version → Version → Doc → Doc) (target : Version) (text : Str) :
    readTagValueInto copy false target text = .err := rfl

/-- **C38.** Reading never panics (given that conversion between versions does not). -/
theorem C38_never_panics (copy : Version → Version → Doc → Doc) (isPtr : Bool) (target : Version) (text : Str) :
    readTagValueInto copy isPtr target text ≠ .panic := by
  cases isPtr with
  | false => simp [readTagValueInto]
  | true =>
    unfold readTagValueInto
    simp only [Bool.not_true, Bool.false_eq_true, if_false]
    cases h : readTagValues text with
    | err => simp
    | panic => exact absurd h (by
        intro h
        have := C05_read_and_parse_never_panics .v23 text
        rw [h] at this; exact this rfl)
    | ok tvs =>
      simp only [Res.bind_ok]
      split
      · simp
      · rename_i hne
        split
        · simp
        · rename_i v hv
          cases hp : parseTagValues v tvs with
          | err => simp
          | panic => exact absurd hp (C05_parse_never_panics v tvs)
          | ok o =>
            simp only [Res.bind_ok]
            cases o with
            | none => exact absurd ((C05_no_document_iff_empty v tvs).1 hp) hne
            | some d => simp [convertDocument]

/-- **C38.** The document read carries the version of the variable, if the text does not state two versions. -/
theorem C38_version (copy : Version → Version → Doc → Doc) (target : Version) (text : Str) (d : Doc) (tvs : List TVPair)
    (h : readTagValueInto copy true target text = .ok d) (htvs : readTagValues text = .ok tvs)
    (hone : ∀ a ∈ values g!"SPDXVersion" tvs, ∀ b ∈ values g!"SPDXVersion" tvs, a = b) :
    VersionNamed d.spdxVersion target := by
  obtain ⟨tvs', name, v, d0, h1, h2, h3, h4, h5⟩ := (C38_dispatch copy target text).1 d h
  rw [htvs, Res.ok.injEq] at h1
  subst h1
  unfold ConvertedTo at h5
  split at h5
  · rename_i hv
    subst h5 hv
    have hs := (documentSays h4).version
    obtain ⟨b, a, ht, hb⟩ := h2
    have hmem : name ∈ values g!"SPDXVersion" tvs := by
      rw [ht]; simp [values]
    have hlast : lastValue g!"SPDXVersion" tvs = name := by
      unfold lastValue
      cases hv : (values g!"SPDXVersion" tvs).getLast? with
      | none => rw [List.getLast?_eq_none_iff] at hv; rw [hv] at hmem; simp at hmem
      | some x => exact hone _ (List.mem_of_getLast? hv) _ hmem
    rw [hs, hlast]; exact h3
  · exact h5

/-- A text with one version, and one with two. -/
def oneVersion : Str := g!"SPDXVersion: SPDX-2.2\nDocumentName: d\n"
def twoVersions : Str := g!"SPDXVersion: SPDX-2.2\nSPDXVersion: SPDX-2.9\n"

/-- The hypotheses are met: a text of version 2.2 read into a variable of version 2.3 and of version 2.2. -/
example : (∃ d, readTagValueInto (fun _ _ d => d) true .v23 oneVersion = .ok d ∧ d.spdxVersion = g!"SPDX-2.3" ∧ d.name = g!"d") ∧
    (∃ d, readTagValueInto (fun _ _ d => d) true .v22 oneVersion = .ok d ∧ d.spdxVersion = g!"SPDX-2.2") ∧
    readTagValues oneVersion = .ok [⟨g!"SPDXVersion", g!"SPDX-2.2"⟩, ⟨g!"DocumentName", g!"d"⟩] ∧
    readTagValueInto (fun _ _ d => d) true .v22 g!"DocumentName: d\n" = .err := by
  refine ⟨⟨_, by rfl, ?_⟩, ⟨_, by rfl, ?_⟩, ?_, ?_⟩ <;> decide +kernel

/-- With two versions stated, the first decides on the rules and the last is what the document carries. -/
theorem C38_two_versions_false : ∃ (copy : Version → Version → Doc → Doc) (text : Str) (d : Doc),
    readTagValueInto copy true .v22 text = .ok d ∧ d.spdxVersion = g!"SPDX-2.9" :=
  ⟨fun _ _ d => d, twoVersions, { spdxVersion := g!"SPDX-2.9" }, by decide +kernel, rfl⟩

/-! ## JSON -/

/-- The field of the version. -/
def versionField : Field RawDoc :=
  strF g!"spdxVersion" (·.doc.spdxVersion) (fun b s => { s with doc := { s.doc with spdxVersion := b } })

theorem docFields_version (so : Sorter) (v : Version) :
    docFields so v = versionField :: (docFields so v).drop 1 := rfl

theorem holds_version (so : Sorter) (v : Version) {es : List (Str × Json)} (ho : OneEach es) {raw : RawDoc}
    (h : (structCodec (docFields so v)).dec (.obj es) {} = .ok raw) :
    Holds es g!"spdxVersion" strCodec [] raw.doc.spdxVersion := by
  rw [docFields_version] at h
  refine decode_field (A := []) (f := versionField) ho (by simp) ?_ (fun _ _ => rfl) h
  intro g hg b s
  simp only [docFields, List.drop, List.mem_cons, List.not_mem_nil, or_false] at hg
  rcases hg with rfl | rfl | rfl | rfl | rfl | rfl | rfl | rfl | rfl | rfl | rfl | rfl | rfl <;> rfl

theorem decodeDoc_version {so : Sorter} {v : Version} {es : List (Str × Json)} (ho : OneEach es) {d : Doc}
    (h : decodeDoc so v (.obj es) = .ok d) : Holds es g!"spdxVersion" strCodec [] d.spdxVersion := by
  cases h1 : (structCodec (docFields so v)).dec (.obj es) {} with
  | err => cases v <;> simp [decodeDoc, h1] at h
  | panic => cases v <;> simp [decodeDoc, h1] at h
  | ok raw =>
    have : d.spdxVersion = raw.doc.spdxVersion := by
      cases v with
      | v21 =>
        simp only [decodeDoc, h1, Res.bind_ok] at h
        rw [bind_eq_ok] at h
        obtain ⟨ps, -, h⟩ := h
        rw [bind_eq_ok] at h
        obtain ⟨rs, -, h⟩ := h
        simp only [Res.ok.injEq] at h; subst h; rfl
      | v22 =>
        simp only [decodeDoc, h1, Res.bind_ok] at h
        rw [bind_eq_ok] at h
        obtain ⟨ps, -, h⟩ := h
        rw [bind_eq_ok] at h
        obtain ⟨rs, -, h⟩ := h
        simp only [Res.ok.injEq] at h; subst h; rfl
      | v23 =>
        simp only [decodeDoc, h1, Res.bind_ok] at h
        rw [bind_eq_ok] at h
        obtain ⟨ps, -, h⟩ := h
        rw [bind_eq_ok] at h
        obtain ⟨rs, -, h⟩ := h
        simp only [Res.ok.injEq] at h; subst h; rfl
    rw [this]; exact holds_version so v ho h1

theorem mem_of_lastEntry {key : Str} {es : List (Str × Json)} {j : Json} (h : lastEntry key es = some j) : (key, j) ∈ es := by
  induction es with
  | nil => simp [lastEntry] at h
  | cons e es ih =>
    obtain ⟨k, x⟩ := e
    unfold lastEntry at h
    split at h
    · rename_i j' hj
      simp only [Option.some.injEq] at h; subst h
      exact List.mem_cons_of_mem _ (ih hj)
    · split at h
      · rename_i hk
        simp only [Option.some.injEq] at h; subst h hk; simp
      · simp at h

/-- **C38.** Reading JSON into a variable: the key `spdxVersion` decides on the rules, and if no key occurs twice
the document read carries the version of the variable. -/
theorem C38_json (so : Sorter) (copy : Version → Version → Doc → Doc) (target : Version) (j : Json) (d : Doc)
    (h : readJsonInto so copy true target j = .ok d) :
    ∃ es raw name v d0, j = .obj es ∧ (g!"spdxVersion", .str raw) ∈ es ∧ unescape raw = some name ∧ VersionNamed name v ∧
      decodeDoc so v j = .ok d0 ∧ ConvertedTo v target d0 d ∧ (OneEach es → VersionNamed d.spdxVersion target) := by
  unfold readJsonInto at h
  simp only [Bool.not_true, Bool.false_eq_true, if_false] at h
  split at h
  · rename_i es
    split at h
    · rename_i raw hraw
      split at h
      · rename_i v hv
        rw [bind_eq_ok] at h
        obtain ⟨d0, hd0, h⟩ := h
        simp only [convertDocument, Bool.not_true, Bool.false_eq_true, if_false, Res.ok.injEq] at h
        subst h
        simp only [Option.bind_eq_some_iff] at hv
        obtain ⟨name, hname, hv⟩ := hv
        have hc := convertSteps_converted copy v target d0
        refine ⟨es, raw, name, v, d0, rfl, mem_of_lastEntry hraw, hname, versionNamed_iff.1 hv, hd0, hc, ?_⟩
        intro ho
        by_cases hvt : v = target
        · rw [ConvertedTo, if_pos hvt] at hc
          rw [hc]
          have hmem : Json.str raw ∈ entries g!"spdxVersion" es := by
            unfold entries
            rw [List.mem_map]
            exact ⟨_, List.mem_filter.2 ⟨mem_of_lastEntry hraw, by simp [sameKey]⟩, rfl⟩
          rcases decodeDoc_version ho hd0 with ⟨h1, -⟩ | ⟨x, h1, h2⟩
          · rw [h1] at hmem; simp at hmem
          · rw [h1, List.mem_singleton] at hmem
            subst hmem
            simp only [strCodec, hname, Res.ofOption_some, Res.ok.injEq] at h2
            rw [← h2, ← hvt]; exact versionNamed_iff.1 hv
        · rw [ConvertedTo, if_neg hvt] at hc; exact hc
      · simp at h
    · simp at h
  · simp at h

/-- A JSON document that spells the key of its version in two ways. -/
def twoKeys : Json := .obj [(g!"spdxVersion", .str g!"SPDX-2.3"), (g!"SPDXVERSION", .str g!"SPDX-2.9")]

/-- The same disagreement for JSON, with two spellings of a key. -/
theorem C38_json_two_keys_false : ∃ (so : Sorter) (copy : Version → Version → Doc → Doc) (j : Json) (d : Doc),
    readJsonInto so copy true .v23 j = .ok d ∧ d.spdxVersion = g!"SPDX-2.9" :=
  ⟨insertionSorter, fun _ _ d => d, twoKeys, { spdxVersion := g!"SPDX-2.9" }, by decide +kernel, rfl⟩

example : ∃ d, readJsonInto insertionSorter (fun _ _ d => d) true .v22
    (.obj [(g!"spdxVersion", .str g!"SPDX-2.3"), (g!"name", .str g!"d")]) = .ok d ∧
    d.spdxVersion = g!"SPDX-2.2" ∧ d.name = g!"d" :=
  ⟨_, rfl, by decide +kernel, by decide +kernel⟩

/-! ## C39 -/

/-- ASCII text. -/
def Spec.IsAscii (s : Str) : Prop := ∀ c ∈ s, c.toNat < 128

/-- **C39.** Text that is short, or has at least the required number of characters, is shortened to itself or to
its first characters followed by an ellipsis. -/
theorem C39_limit (cap : Nat → Nat) (text : Str) (length : Int) :
    (length ≤ 0 ∨ (byteLen text : Int) ≤ length + 3 → limit cap text length = .ok text) ∧
    (∀ n : Nat, length = n → 0 < n → n + 3 < byteLen text → n ≤ text.length →
      limit cap text length = .ok (text.take n ++ g!"...")) ∧
    (∀ n : Nat, length = n → 0 < n → n + 3 < byteLen text → text.length < n → cap text.length < n →
      limit cap text length = .panic) := by
  refine ⟨fun h => by simp [limit, h], ?_, ?_⟩
  · rintro n rfl h0 h1 h2
    unfold limit
    rw [if_neg (by omega)]
    simp only [Int.toNat_natCast]
    rw [if_pos (by omega), Nat.sub_eq_zero_of_le h2]
    simp
  · rintro n rfl h0 h1 h2 h3
    unfold limit
    rw [if_neg (by omega)]
    simp only [Int.toNat_natCast]
    rw [if_neg (by omega)]

theorem byteLen_ascii {s : Str} (h : IsAscii s) : byteLen s = s.length := by
  induction s with
  | nil => rfl
  | cons c s ih =>
    have h1 : byteLen (c :: s) = runeLen c + byteLen s := by simp [byteLen]
    have h2 : runeLen c = 1 := by simp [runeLen, h c (by simp)]
    rw [h1, h2, ih fun x hx => h x (by simp [hx]), List.length_cons]; omega

/-- **C39.** ASCII text is always shortened, to itself or to a prefix followed by an ellipsis. -/
theorem C39_ascii (cap : Nat → Nat) (text : Str) (length : Int) (h : IsAscii text) :
    limit cap text length = .ok text ∨
    ∃ p, p <+: text ∧ (p.length : Int) = length ∧ limit cap text length = .ok (p ++ g!"...") := by
  have hb := byteLen_ascii h
  by_cases hs : length ≤ 0 ∨ (byteLen text : Int) ≤ length + 3
  · exact Or.inl ((C39_limit cap text length).1 hs)
  · right
    have hn : length = (length.toNat : Int) := by omega
    have := (C39_limit cap text length).2.1 length.toNat hn (by omega) (by omega) (by omega)
    refine ⟨text.take length.toNat, List.take_prefix _ _, ?_, this⟩
    rw [List.length_take]; omega

/-- The bound of 300 used in error descriptions, on 152 letters of two bytes each: a panic, if the converted
text has no spare room. -/
theorem C39_multibyte_false : limit (fun n => n) (List.replicate 152 'é') 300 = .panic := by decide +kernel

example : limit (fun n => n) (List.replicate 304 'x') 300 = .ok (List.replicate 300 'x' ++ g!"...") ∧
    limit (fun n => n) (List.replicate 303 'x') 300 = .ok (List.replicate 303 'x') := by decide +kernel

end Verif
