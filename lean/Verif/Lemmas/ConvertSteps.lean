import Verif.Lemmas.Convert
import Verif.Model.ReadInto

/-!
# Lemmas: the chain of conversions
-/

namespace Verif
variable (lib : Copier)

theorem snippetIn_in (a b : Version) (s : Snippet) : snippetIn b (snippetIn a s) = snippetIn (older a b) s := by
  cases a <;> cases b <;> simp [snippetIn, older]

theorem fileIn_in (a b : Version) (f : FileV) : fileIn b (fileIn a f) = fileIn (older a b) f := by
  cases a <;> cases b <;> simp [fileIn, older, snippetIn_in]

theorem packageIn_in (a b : Version) (p : PackageV) : packageIn b (packageIn a p) = packageIn (older a b) p := by
  cases a <;> cases b <;> simp [packageIn, older, fileIn_in]

theorem plainCode_to (a b : Version) (p : PackageV) :
    plainCode (packageIn b (packageTo lib a b p)) = plainCode (packageIn (older a b) p) := by
  rw [← packageIn_in]
  unfold packageTo plainCode
  have : (if codeTo lib a b p.verificationCode = some {} then none else codeTo lib a b p.verificationCode) =
      if p.verificationCode = some {} then none else p.verificationCode := by
    unfold codeTo
    cases p.verificationCode with
    | none => by_cases h : a = .v23 ∨ b ≠ .v23 <;> simp [h]
    | some c =>
      by_cases h : a = .v23 ∨ b ≠ .v23 <;> by_cases hc : c = {} <;> simp [h, hc]
  simpa [packageIn] using this

theorem plainCode_idem (p : PackageV) : plainCode (plainCode p) = plainCode p := by
  simp only [plainCode]
  by_cases h : p.verificationCode = some {} <;> simp [h]

theorem plainCodes_idem (d : Doc) : plainCodes (plainCodes d) = plainCodes d := by
  simp [plainCodes, plainCode_idem]

/-- What one copy gives. -/
theorem structCopy_ok (a b : Version) (d : Doc) (h : Solid d) :
    ∃ d', structCopy lib a b d = .ok d' ∧ Solid d' ∧ plainCodes d' = plainCodes (documentIn (older a b) d) ∧
      (b ≠ .v23 → plainCodes d' = d') := by
  refine ⟨_, by rw [structCopy, conv_document lib a b d h, Res.bind_ok], ?_⟩
  simp only [Option.getD_some, document_back]
  have hp : ∀ p, plainCode (if b = .v23 then packageIn b (packageTo lib a b p) else plainCode (packageIn b (packageTo lib a b p)))
      = plainCode (packageIn (older a b) p) := by
    intro p
    split
    · exact plainCode_to lib a b p
    · rw [plainCode_idem, plainCode_to]
  refine ⟨?_, ?_, ?_⟩
  · have hfile : ∀ f, SolidFile f → SolidFile (fileIn b (fileIn a f)) := by
      intro f hf
      rw [fileIn_in]
      refine ⟨hf.1, hf.2.1, ?_⟩
      intro e he
      simp only [fileIn, List.mem_map] at he
      obtain ⟨e', he', rfl⟩ := he
      simp only [snippetIn]
      split <;> exact hf.2.2 e' he'
    constructor
    · exact h.creationInfo
    · intro p hp'
      simp only [documentTo, documentIn, List.map_map, List.mem_map, Function.comp_apply] at hp'
      obtain ⟨q, hq, rfl⟩ := hp'
      have := h.packages q hq
      split <;> simpa [plainCode, packageIn, packageTo] using this
    · intro f hf
      simp only [documentTo, documentIn, List.map_map, List.mem_map, Function.comp_apply] at hf
      rcases hf with ⟨g, hg, rfl⟩ | ⟨p, ⟨q, hq, rfl⟩, hf⟩
      · exact hfile g (h.files g (.inl hg))
      · have : f ∈ (packageIn b (packageTo lib a b q)).files := by
          split at hf
          · exact hf
          · exact hf
        simp only [packageIn, packageTo, List.map_map, List.mem_map, Function.comp_apply] at this
        obtain ⟨g, hg, rfl⟩ := this
        exact hfile g (h.files g (.inr ⟨q, hq, hg⟩))
    · exact h.otherLicenses
    · exact h.relationships
    · exact h.annotations
    · exact h.reviews
  · simp only [plainCodes, documentTo, documentIn, List.map_map, Function.comp_def, hp, fileIn_in, snippetIn_in]
  · intro hb
    simp only [if_neg hb, plainCodes, List.map_map, Function.comp_def, plainCode_idem]

theorem solid_version {d : Doc} (h : Solid d) (s : Str) : Solid (restated s d) :=
  ⟨h.creationInfo, h.packages, h.files, h.otherLicenses, h.relationships, h.annotations, h.reviews⟩

/-- What one step gives. -/
theorem convertStep_ok (a b : Version) (d : Doc) (h : Solid d) :
    ∃ d', convertStep lib a b d = .ok d' ∧ Solid d' ∧
      plainCodes d' = restated (versionName b) (plainCodes (documentIn (older a b) d)) ∧
      (b ≠ .v23 → plainCodes d' = d') := by
  obtain ⟨d', h1, h2, h3, h4⟩ := structCopy_ok lib a b d h
  refine ⟨restated (versionName b) d', by rw [convertStep, h1, Res.bind_ok]; rfl, solid_version h2 _, ?_, ?_⟩
  · rw [← h3]; rfl
  · intro hb
    exact congrArg (restated (versionName b)) (h4 hb)

theorem plain_in (v : Version) (d : Doc) : plainCodes (documentIn v d) = documentIn v (plainCodes d) := by
  simp only [plainCodes, documentIn, List.map_map]
  rfl

theorem documentIn_in (a b : Version) (d : Doc) : documentIn b (documentIn a d) = documentIn (older a b) d := by
  simp only [documentIn, List.map_map, Function.comp_def, packageIn_in, fileIn_in, snippetIn_in]

/-- What the chain gives. -/
theorem convertWith_ok (a b : Version) (d : Doc) (h : Solid d) :
    ∃ d', convertWith lib true a b d = .ok d' ∧ Solid d' ∧ (a = b → d' = d) ∧
      (a ≠ b → d'.spdxVersion = versionName b ∧
        plainCodes d' = restated (versionName b) (plainCodes (documentIn (older a b) d)) ∧
        (b ≠ .v23 → plainCodes d' = d')) := by
  have one : ∀ a b, ∃ d', convertStep lib a b d = .ok d' ∧ Solid d' ∧ (a = b → d' = d ∨ True) ∧
      (d'.spdxVersion = versionName b ∧
        plainCodes d' = restated (versionName b) (plainCodes (documentIn (older a b) d)) ∧
        (b ≠ .v23 → plainCodes d' = d')) := by
    intro a b
    obtain ⟨d', h1, h2, h3, h4⟩ := convertStep_ok lib a b d h
    exact ⟨d', h1, h2, fun _ => .inr trivial, by
      have := congrArg Document.spdxVersion h3
      exact this, h3, h4⟩
  have two : ∀ a b c, older (older a b) (older b c) = older a c → ∃ d', (convertStep lib a b d >>= fun d1 => convertStep lib b c d1) = .ok d' ∧
      Solid d' ∧ (d'.spdxVersion = versionName c ∧
        plainCodes d' = restated (versionName c) (plainCodes (documentIn (older a c) d)) ∧
        (c ≠ .v23 → plainCodes d' = d')) := by
    intro a b c ho
    obtain ⟨d1, h1, h2, h3, -⟩ := convertStep_ok lib a b d h
    obtain ⟨d2, g1, g2, g3, g4⟩ := convertStep_ok lib b c d1 h2
    refine ⟨d2, by rw [h1, Res.bind_ok, g1], g2, congrArg Document.spdxVersion g3, ?_, g4⟩
    have e : plainCodes (documentIn (older a c) d) = documentIn (older b c) (plainCodes (documentIn (older a b) d)) := by
      rw [← ho, ← documentIn_in (older a b) (older b c) d, plain_in]
    rw [g3, plain_in, h3, e]
    rfl
  cases a <;> cases b <;> simp only [convertWith, Bool.not_true, Bool.false_eq_true, if_false]
  case v21.v21 => exact ⟨d, rfl, h, fun _ => rfl, by simp⟩
  case v22.v22 => exact ⟨d, rfl, h, fun _ => rfl, by simp⟩
  case v23.v23 => exact ⟨d, rfl, h, fun _ => rfl, by simp⟩
  case v21.v22 => obtain ⟨d', h1, h2, -, h3⟩ := one .v21 .v22; exact ⟨d', h1, h2, by simp, fun _ => h3⟩
  case v22.v23 => obtain ⟨d', h1, h2, -, h3⟩ := one .v22 .v23; exact ⟨d', h1, h2, by simp, fun _ => h3⟩
  case v22.v21 => obtain ⟨d', h1, h2, -, h3⟩ := one .v22 .v21; exact ⟨d', h1, h2, by simp, fun _ => h3⟩
  case v23.v22 => obtain ⟨d', h1, h2, -, h3⟩ := one .v23 .v22; exact ⟨d', h1, h2, by simp, fun _ => h3⟩
  case v21.v23 => obtain ⟨d', h1, h2, h3⟩ := two .v21 .v22 .v23 rfl; exact ⟨d', h1, h2, by simp, fun _ => h3⟩
  case v23.v21 => obtain ⟨d', h1, h2, h3⟩ := two .v23 .v22 .v21 rfl; exact ⟨d', h1, h2, by simp, fun _ => h3⟩

theorem step_copied {a b : Version} {d d' : Doc} (h : convertStep lib a b d = .ok d') :
    restated (versionName b) (structCopied lib a b d) = d' := by
  unfold convertStep at h
  unfold structCopied
  cases hc : structCopy lib a b d with
  | ok x => rw [hc, Res.bind_ok] at h; exact Res.ok.inj h
  | err => rw [hc] at h; simp at h
  | panic => rw [hc] at h; simp at h

/-- `convertDocument` with that copying is `convertWith`. -/
theorem convertDocument_with (isPtr : Bool) (a b : Version) (d : Doc) (h : Solid d) :
    convertDocument (structCopied lib) isPtr a b d = convertWith lib isPtr a b d := by
  cases isPtr with
  | false => rfl
  | true =>
    have two : ∀ a b c, (convertStep lib a b d >>= fun d1 => convertStep lib b c d1) =
        .ok (restated (versionName c) (structCopied lib b c (restated (versionName b) (structCopied lib a b d)))) := by
      intro a b c
      obtain ⟨d1, h1, h2, -⟩ := convertStep_ok lib a b d h
      obtain ⟨d2, g1, -⟩ := convertStep_ok lib b c d1 h2
      rw [h1, Res.bind_ok, g1, step_copied lib h1, step_copied lib g1]
    have one : ∀ a b, convertStep lib a b d = .ok (restated (versionName b) (structCopied lib a b d)) := by
      intro a b
      obtain ⟨d1, h1, -⟩ := convertStep_ok lib a b d h
      rw [h1, step_copied lib h1]
    cases a <;> cases b
    case v21.v23 => exact (two .v21 .v22 .v23).symm
    case v23.v21 => exact (two .v23 .v22 .v21).symm
    case v21.v22 => exact (one .v21 .v22).symm
    case v22.v23 => exact (one .v22 .v23).symm
    case v22.v21 => exact (one .v22 .v21).symm
    case v23.v22 => exact (one .v23 .v22).symm
    all_goals rfl

end Verif
