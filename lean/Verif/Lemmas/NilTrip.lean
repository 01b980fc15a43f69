import Verif.Lemmas.NilJson
import Verif.Lemmas.NilRead
import Verif.Spec.NilEntries

/-!
# JSON round trips with nil entries
-/

namespace Verif
open Spec

variable {σ τ : Type} {html : Bool}

/-- What becomes of a variable when a field that is not one of a part is encoded and decoded. -/
structure Step (html : Bool) (get : τ → σ) (set : σ → τ → τ) (f : Field τ) (t : τ) (step : τ → τ) : Prop where
  trip : ∀ acc, FieldTrip html f t acc (step acc)
  commutes : ∀ s acc, step (set s acc) = set s (step acc)
  part : ∀ acc, get (step acc) = get acc

theorem trips_mixed {get : τ → σ} {set : σ → τ → τ} (L : Lens get set) {g : Field σ → Field τ} (special : Field σ → Bool)
    (step : Field σ → τ → τ) {t : τ} {fs : List (Field σ)} {A B : σ} {es : List (Str × Json)} (h : Trips html (get t) fs A B es)
    (hf : ∀ f ∈ fs, if special f then f.isEmpty (f.get (get t)) = true ∧ Step html get set (g f) t (step f) else g f = f.lift get set) :
    ∀ acc, get acc = A → FieldsTrip html t (fs.map g) acc (set B ((fs.filter special).foldl (fun acc f => step f acc) acc)) := by
  have comm : ∀ (l : List (Field σ)), (∀ f ∈ l, special f = true → Step html get set (g f) t (step f)) → ∀ s acc,
      (l.filter special).foldl (fun acc f => step f acc) (set s acc) = set s ((l.filter special).foldl (fun acc f => step f acc) acc) := by
    intro l
    induction l with
    | nil => intro _ s acc; rfl
    | cons f l ih =>
      intro h s acc
      cases hs : special f with
      | true =>
        simp only [List.filter_cons, hs, if_true, List.foldl_cons]
        rw [(h f (by simp) hs).commutes, ih fun f hf => h f (by simp [hf])]
      | false =>
        simp only [List.filter_cons, hs, Bool.false_eq_true, if_false]
        exact ih (fun f hf => h f (by simp [hf])) s acc
  induction h with
  | nil =>
    intro acc ha
    subst ha
    simp only [List.map_nil, List.filter_nil, List.foldl_nil, L.setGet]
    exact fieldsTrip_nil
  | @skip f fs A B es h1 _ ih =>
    intro acc ha
    have ih := ih fun f hm => hf f (by simp [hm])
    have hf := hf f (by simp)
    cases hs : special f with
    | true =>
      rw [hs, if_pos rfl] at hf
      simp only [List.map_cons, List.filter_cons, hs, if_true, List.foldl_cons]
      exact fieldsTrip_cons (hf.2.trip acc) (ih _ (by rw [hf.2.part, ha]))
    | false =>
      rw [hs, if_neg Bool.false_ne_true] at hf
      simp only [List.map_cons, List.filter_cons, hs, Bool.false_eq_true, if_false, hf]
      exact fieldsTrip_cons (.inl ⟨h1, rfl⟩) (ih acc ha)
  | @keep f fs A B es j b h1 h2 h3 _ ih =>
    intro acc ha
    subst ha
    have hc := comm fs fun f' hm hs => by
      have := hf f' (by simp [hm])
      rw [hs, if_pos rfl] at this
      exact this.2
    have ih := ih fun f hm => hf f (by simp [hm])
    have hf := hf f (by simp)
    cases hs : special f with
    | true =>
      rw [hs, if_pos rfl, h1] at hf
      cases hf.1
    | false =>
      rw [hs, if_neg Bool.false_ne_true] at hf
      simp only [List.map_cons, List.filter_cons, hs, Bool.false_eq_true, if_false, hf]
      have := ih (set (f.set b (get acc)) acc) (L.getSet _ _)
      rw [hc, L.setSet] at this
      exact fieldsTrip_cons (.inr ⟨h1, b, ⟨j, h2, h3⟩, rfl⟩) this

/-- Sets a slice unless there is nothing to set. -/
def stepOf {β γ : Type} (b : List γ) (l : List β) (fset : List β → τ → τ) (acc : τ) : τ := if b = [] then acc else fset l acc

/-- A field with a slice of pointers. -/
theorem step_list {β : Type} {c : Codec (List β)} {key : Str} {fget : τ → List β} {fset : List β → τ → τ} {get : τ → σ} {set : σ → τ → τ}
    {t : τ} {l : List β} (h : ∀ z, Trip html c z (fget t) l)
    (hc : ∀ b s acc, fset b (set s acc) = set s (fset b acc)) (hp : ∀ b acc, get (fset b acc) = get acc) :
    Step html get set (listOptF c key fget fset) t (stepOf (fget t) l fset) := by
  unfold stepOf
  by_cases hl : fget t = []
  · simp only [hl, if_true]
    exact ⟨fun acc => .inl ⟨by simp [listOptF, hl], rfl⟩, fun _ _ => rfl, fun _ => rfl⟩
  · simp only [hl, if_false]
    exact ⟨fun acc => .inr ⟨by simp [listOptF, hl], l, h _, rfl⟩, hc l, hp l⟩

theorem trip_nilList {β : Type} {c : Codec β} {zero : β} {g : β → β} {z l : List (Option β)}
    (h : ∀ b, some b ∈ l → TripN html c zero b (g b)) : Trip html (nilListCodec zero c) z l (l.map (Option.map g)) :=
  trip_list fun o ho => by
    cases o with
    | none => exact trip_ptr_none
    | some b => exact (trip_ptr (h b ho)).trip

/-! ## Files -/

/-- The step of a field of a file. -/
def nFileStep (t : NFile) (_ : Field FileV) : NFile → NFile :=
  stepOf t.artifacts t.artifacts (fun b s => { s with artifacts := b })

theorem all_cons {P : Field σ → Prop} {f : Field σ} {fs : List (Field σ)} (h : P f) (hs : ∀ x ∈ fs, P x) : ∀ x ∈ f :: fs, P x := by
  intro x hx
  rcases List.mem_cons.1 hx with rfl | hx
  · exact h
  · exact hs x hx

theorem all_nil {P : Field σ → Prop} : ∀ x ∈ ([] : List (Field σ)), P x := fun _ h => by cases h

theorem all_append {P : Field σ → Prop} {fs gs : List (Field σ)} (h1 : ∀ x ∈ fs, P x) (h2 : ∀ x ∈ gs, P x) : ∀ x ∈ fs ++ gs, P x :=
  fun f hf => (List.mem_append.1 hf).elim (h1 f) (h2 f)

theorem all_only {P : Field σ → Prop} {b : Bool} {f : Field σ} (h : P f) : ∀ x ∈ only b f, P x := by
  cases b
  · exact all_nil
  · exact all_cons h all_nil

/-- The field is not one of the keys, or there is nothing in it. -/
def Vacant (keys : List Str) (s : σ) (f : Field σ) : Prop := f.key ∈ keys → f.isEmpty (f.get s) = true

theorem vacant_list {β : Type} {c : Codec (List β)} {key : Str} {fget : σ → List β} {fset : List β → σ → σ} {keys : List Str} {s : σ}
    (h : fget s = []) : Vacant keys s (listOptF c key fget fset) := fun _ => by
  show (fget s).isEmpty = true
  rw [h]; rfl

theorem vacant_key {keys : List Str} {s : σ} {f : Field σ} (h : f.key ∉ keys) : Vacant keys s f := fun h' => absurd h' h

theorem vacant_list_key {β : Type} {c : Codec (List β)} {key : Str} {fget : σ → List β} {fset : List β → σ → σ} {keys : List Str} {s : σ}
    (h : key ∉ keys) : Vacant keys s (listOptF c key fget fset) := vacant_key h

macro "fields_vacant" : tactic => `(tactic| repeat' first
  | exact all_nil | refine all_cons ?_ ?_ | refine all_append ?_ ?_ | refine all_only ?_ | exact vacant_key (by decide)
  | exact vacant_list_key (by decide) | exact vacant_list (by assumption))

theorem vacant_file (v : Version) {f : FileV} (h : f.artifactOfProjects = []) : ∀ x ∈ fileFields v, Vacant [g!"artifactOfs"] f x := by
  unfold fileFields
  cases v <;> fields_vacant

theorem trip_nfile (v : Version) {t : NFile} (h : JsonFile html t.file) (hp : ProperFile t) :
    TripN html (nFileCodec v) {} t (nKeptFile v t) := by
  obtain ⟨es, ht⟩ := trip_fileFields v h
  have ha : Step html (·.file) (fun b s => { s with file := b }) artifactsField t
      (stepOf t.artifacts t.artifacts (fun b s => { s with artifacts := b })) :=
    step_list (fun z => by
      have := trip_nilList (html := html) (c := artifactCodec) (zero := {}) (g := id) (z := z) (l := t.artifacts) fun b _ => trip_artifact
      rwa [Option.map_id, List.map_id] at this) (fun _ _ _ => rfl) (fun _ _ => rfl)
  have hm := trips_mixed lens_file (fun f => decide (f.key = g!"artifactOfs")) (nFileStep t) (t := t) ht (g := fun f =>
    if f.key = g!"artifactOfs" then artifactsField else f.lift (·.file) (fun b s => { s with file := b })) ?_ {} rfl
  · have e : ({ file := keptFile v t.file, artifacts := (if v = .v23 then t.artifacts else []), snippets := [] } : NFile) =
        { ((fileFields v).filter fun f => decide (f.key = g!"artifactOfs")).foldl (fun acc f => nFileStep t f acc) {} with
          file := keptFile v t.file } := by
      cases v
      · rfl
      · rfl
      · have e : ((fileFields .v23).filter fun f => decide (f.key = g!"artifactOfs")).foldl (fun acc f => nFileStep t f acc) {} =
            stepOf t.artifacts t.artifacts (fun b s => { s with artifacts := b }) {} := rfl
        rw [e]
        unfold stepOf
        by_cases hl : t.artifacts = []
        · simp [hl]
        · simp [hl]
    unfold nKeptFile
    rw [e]
    exact trip_struct (by cases v <;> decide) hm
  · intro f hf
    by_cases hk : f.key = g!"artifactOfs"
    · rw [if_pos (by simp [hk]), if_pos hk]
      exact ⟨vacant_file v hp.1 f hf (by simp [hk]), ha⟩
    · rw [if_neg (by simpa using hk), if_neg hk]

/-! ## Packages -/

/-- The fields of a package with nil entries. -/
def nPackageField (v : Version) (f : Field PackageV) : Field NPackage :=
  if f.key = g!"externalRefs" then externalRefsField v
  else if f.key = g!"files" then packageFilesField v
  else f.lift (·.pkg) (fun b s => { s with pkg := b })

/-- The step of a field of a package. -/
def nPackageStep (v : Version) (t : NPackage) (f : Field PackageV) : NPackage → NPackage :=
  if f.key = g!"externalRefs" then stepOf t.externalRefs (t.externalRefs.map (Option.map (keptRef v))) (fun b s => { s with externalRefs := b })
  else stepOf t.files (t.files.map (Option.map (nKeptFile v))) (fun b s => { s with files := b })

/-- Whether a field of a package is a list of pointers. -/
def packageSpecial (f : Field PackageV) : Bool := decide (f.key ∈ [g!"externalRefs", g!"files"])

/-- A package as its fields are decoded. -/
def nRawPackage (v : Version) (t : NPackage) : NPackage := { nKeptPackage v t with pkg := rawPackage v t.pkg }

theorem vacant_package (v : Version) {p : PackageV} (h1 : p.externalRefs = []) (h2 : p.files = []) :
    ∀ x ∈ packageFields v, Vacant [g!"externalRefs", g!"files"] p x := by
  unfold packageFields packageFieldsA packageFieldsB codeField
  cases v <;> fields_vacant

theorem vacant_noCode {p : PackageV} (h1 : p.externalRefs = []) (h2 : p.files = []) :
    ∀ x ∈ packageFieldsNoCode, Vacant [g!"externalRefs", g!"files"] p x := by
  unfold packageFieldsNoCode packageFieldsA packageFieldsB codeField
  fields_vacant

theorem trip_npackage_fields (v : Version) {t : NPackage} (hf : ∀ f, some f ∈ t.files → JsonFile html f.file) (hp : ProperPackage t)
    {fs : List (Field PackageV)} {es : List (Str × Json)} (ht : Trips html t.pkg fs {} (rawPackage v t.pkg) es)
    (hv : ∀ x ∈ fs, Vacant [g!"externalRefs", g!"files"] t.pkg x)
    (hs : (fs.filter packageSpecial).foldl (fun acc f => nPackageStep v t f acc) {} =
      stepOf t.files (t.files.map (Option.map (nKeptFile v))) (fun b s => { s with files := b })
        (stepOf t.externalRefs (t.externalRefs.map (Option.map (keptRef v))) (fun b s => { s with externalRefs := b }) {})) :
    FieldsTrip html t (fs.map (nPackageField v)) {} (nRawPackage v t) := by
  have h1 : Step html (·.pkg) (fun b s => { s with pkg := b }) (externalRefsField v) t
      (stepOf t.externalRefs (t.externalRefs.map (Option.map (keptRef v))) (fun b s => { s with externalRefs := b })) :=
    step_list (fun z => trip_nilList fun b _ => trip_externalRef v) (fun _ _ _ => rfl) (fun _ _ => rfl)
  have h2 : Step html (·.pkg) (fun b s => { s with pkg := b }) (packageFilesField v) t
      (stepOf t.files (t.files.map (Option.map (nKeptFile v))) (fun b s => { s with files := b })) :=
    step_list (fun z => trip_nilList fun b hb => trip_nfile v (hf b hb) (hp.2.2 b hb)) (fun _ _ _ => rfl) (fun _ _ => rfl)
  have hm := trips_mixed lens_pkg packageSpecial (nPackageStep v t) (t := t) ht (g := nPackageField v) ?_ {} rfl
  · rw [hs] at hm
    have e : nRawPackage v t = { stepOf t.files (t.files.map (Option.map (nKeptFile v))) (fun b (s : NPackage) => { s with files := b })
        (stepOf t.externalRefs (t.externalRefs.map (Option.map (keptRef v))) (fun b (s : NPackage) => { s with externalRefs := b }) {}) with pkg := rawPackage v t.pkg } := by
      unfold nRawPackage nKeptPackage stepOf
      by_cases ha : t.files = [] <;> by_cases hb : t.externalRefs = [] <;> simp [ha, hb]
    rw [e]
    exact hm
  · intro f hm
    unfold packageSpecial nPackageField nPackageStep
    by_cases hk : f.key = g!"externalRefs"
    · rw [if_pos (by simp [hk]), if_pos hk, if_pos hk]
      exact ⟨hv f hm (by simp [hk]), h1⟩
    · by_cases hk' : f.key = g!"files"
      · rw [if_pos (by simp [hk']), if_neg hk, if_pos hk', if_neg hk]
        exact ⟨hv f hm (by simp [hk']), h2⟩
      · rw [if_neg (by simp only [List.mem_cons, List.not_mem_nil, or_false, decide_eq_true_eq]; exact fun h => h.elim hk hk'), if_neg hk, if_neg hk']

theorem keys_nPackage (v : Version) : (nPackageFields v).map (·.key) = (packageFields v).map (·.key) := by cases v <;> rfl

theorem nfiles_analyzed {v : Version} {t : NPackage} {es : List (Str × Json)} (he : encodeFields t (nPackageFields v) = .ok es) (hv : v ≠ .v21) :
    (g!"filesAnalyzed", Json.bool t.pkg.filesAnalyzed) ∈ es := by
  have hm : ∃ f ∈ nPackageFields v, f.key = g!"filesAnalyzed" ∧ f.isEmpty (f.get t) = false ∧
      f.codec.enc (f.get t) = .ok (.bool t.pkg.filesAnalyzed) :=
    ⟨_, List.mem_of_getElem? (show (nPackageFields v)[7]? = some _ from rfl), rfl, by cases v <;> first | rfl | exact absurd rfl hv, rfl⟩
  obtain ⟨f, hf, hk, h0, he'⟩ := hm
  obtain ⟨j, h1, h2⟩ := encode_mem he hf h0
  rw [hk] at h2
  rw [he'] at h1
  cases h1
  exact h2

theorem encode_without {s : σ} {key : Str} : ∀ {fs : List (Field σ)} {es : List (Str × Json)}, encodeFields s fs = .ok es →
    encodeFields s (fs.filter fun f => f.key ≠ key) = .ok (es.filter fun e => e.1 ≠ key)
  | [], _, h => by cases h; rfl
  | f :: fs, es, h => by
    rw [encodeFields] at h
    rw [List.filter_cons]
    cases he : f.isEmpty (f.get s) with
    | true =>
      rw [he, if_pos rfl] at h
      split
      · rw [encodeFields, he, if_pos rfl]; exact encode_without h
      · exact encode_without h
    | false =>
      rw [he, if_neg Bool.false_ne_true] at h
      cases hx : f.codec.enc (f.get s) with
      | err => rw [hx] at h; cases h
      | panic => rw [hx] at h; cases h
      | ok x =>
        rw [hx, Res.bind_ok] at h
        cases hy : encodeFields s fs with
        | err => rw [hy] at h; cases h
        | panic => rw [hy] at h; cases h
        | ok y =>
          rw [hy, Res.bind_ok] at h
          cases h
          have ih := encode_without (key := key) hy
          by_cases hk : f.key = key
          · rw [if_neg (by simp [hk]), List.filter_cons, if_neg (by simp [hk]), ih]
          · rw [if_pos (by simp [hk]), encodeFields, he, if_neg Bool.false_ne_true, hx, Res.bind_ok, ih, Res.bind_ok, List.filter_cons,
              if_pos (by simp [hk])]

theorem encode_skip {s : σ} {f : Field σ} (h : f.isEmpty (f.get s) = true) : ∀ (fs gs : List (Field σ)),
    encodeFields s (fs ++ f :: gs) = encodeFields s (fs ++ gs)
  | [], gs => by rw [List.nil_append, encodeFields, if_pos h]; rfl
  | x :: fs, gs => by simp only [List.cons_append, encodeFields, encode_skip h fs gs]

theorem dec_nNoCode (k : Json) (s : NPackage) :
    (structCodec (packageFieldsNoCode.map (nPackageField .v22))).dec k s = (structCodec (nPackageFields .v22)).dec k s := by
  cases k with
  | obj es =>
    have e : nPackageFields .v22 = (packageFieldsA .v22).map (nPackageField .v22) ++ (nPackageField .v22 (codeField .v22) ::
      (packageFieldsB .v22).map (nPackageField .v22)) := by
      show (packageFieldsA .v22 ++ codeField .v22 :: packageFieldsB .v22).map (nPackageField .v22) = _
      rw [List.map_append, List.map_cons]
    have e' : packageFieldsNoCode.map (nPackageField .v22) = (packageFieldsA .v22).map (nPackageField .v22) ++
      ({ nPackageField .v22 (codeField .v22) with isEmpty := fun _ => true } :: (packageFieldsB .v22).map (nPackageField .v22)) := by
      unfold packageFieldsNoCode
      rw [List.map_append, List.map_cons]
      rfl
    simp only [structCodec, e, e', decodeFields_append]
    cases decodeFields es ((packageFieldsA .v22).map (nPackageField .v22)) s with
    | ok t =>
      show decodeFields es ({ nPackageField .v22 (codeField .v22) with isEmpty := fun _ => true } :: _) t = decodeFields es (nPackageField .v22 (codeField .v22) :: _) t
      simp only [decodeFields, decodeEntries_isEmpty]
    | err => rfl
    | panic => rfl
  | _ => rfl

theorem encode_npackage (so : Sorter) (v : Version) {t : NPackage} (h : JsonPackage html t.pkg)
    (hf : ∀ f, some f ∈ t.files → JsonFile html f.file) (hp : ProperPackage t) :
    ∃ j es, encodeNPackage so v (t, []) = .ok j ∧ Like false (.obj es) j ∧
      (es.map (·.1)).Sublist ((packageFields v).map (·.key)) ∧
      (v ≠ .v21 → (g!"filesAnalyzed", .bool t.pkg.filesAnalyzed) ∈ es) ∧
      ∀ k, Like html (.obj es) k → (structCodec (nPackageFields v)).dec k {} = .ok (nRawPackage v t) := by
  obtain ⟨es0, ht0⟩ := trip_packageFields v h
  obtain ⟨es, ht⟩ : FieldsTrip html t (nPackageFields v) {} (nRawPackage v t) :=
    trip_npackage_fields v hf hp ht0 (vacant_package v hp.1 hp.2.1) (by cases v <;> rfl)
  have henc := trips_encode ht
  have hk := trips_keys ht
  rw [keys_nPackage] at hk
  by_cases hc : v = .v22 ∧ codeValue t.pkg.verificationCode = {}
  · obtain ⟨rfl, hc⟩ := hc
    obtain ⟨esA, hA⟩ := trip_packageA .v22 h
    obtain ⟨esB, hB⟩ := trip_packageB .v22 (c := none) h
    have hB' : Trips html t.pkg (packageFieldsB .v22) (partPackage t.pkg) (rawPackage .v22 t.pkg) esB := by
      have e : { rawPackage .v22 t.pkg with verificationCode := none } = rawPackage .v22 t.pkg := by
        rw [← rawPackage_code22, hc]; rfl
      rw [e] at hB
      exact hB
    have h1 : Trips html t.pkg packageFieldsNoCode {} (rawPackage .v22 t.pkg) (esA ++ esB) := trips_append hA (.skip rfl hB')
    obtain ⟨es', ht'⟩ := trip_npackage_fields .v22 hf hp h1 (vacant_noCode hp.1 hp.2.1) rfl
    have henc' := trips_encode ht'
    have e : es' = es.filter fun e => e.1 ≠ codeKey := by
      have hw := encode_without (key := codeKey) henc
      have h2 : (nPackageFields .v22).filter (fun f => f.key ≠ codeKey) =
          (packageFieldsA .v22).map (nPackageField .v22) ++ (packageFieldsB .v22).map (nPackageField .v22) := rfl
      have h3 : packageFieldsNoCode.map (nPackageField .v22) = (packageFieldsA .v22).map (nPackageField .v22) ++
          (nPackageField .v22 { codeField .v22 with isEmpty := fun _ => true } :: (packageFieldsB .v22).map (nPackageField .v22)) := by
        unfold packageFieldsNoCode
        rw [List.map_append, List.map_cons]
      rw [h2] at hw
      rw [h3, encode_skip rfl, hw] at henc'
      exact (Res.ok.inj henc').symm
    refine ⟨_, es', ?_, like_sort so _, ?_, fun hv => ?_, fun k hkk => ?_⟩
    · simp only [encodeNPackage, henc, Res.bind_ok, if_pos hc, ← e]
    · rw [e]
      exact (List.filter_sublist.map _).trans hk
    · rw [e, List.mem_filter]
      exact ⟨nfiles_analyzed henc hv, show decide (g!"filesAnalyzed" ≠ codeKey) = true by decide⟩
    · rw [← dec_nNoCode]
      exact trips_obj ht' (by decide) k hkk
  · refine ⟨.obj es, es, ?_, like_refl _, hk, nfiles_analyzed henc, trips_obj ht (by rw [keys_nPackage]; exact keys_package v)⟩
    cases v with
    | v22 =>
      have hc' : ¬ codeValue t.pkg.verificationCode = {} := fun e => hc ⟨rfl, e⟩
      simp only [encodeNPackage, henc, Res.bind_ok, if_neg hc']
    | v21 => simp only [encodeNPackage, structCodec, henc, Res.bind_ok]
    | v23 => simp only [encodeNPackage, structCodec, henc, Res.bind_ok]

theorem trip_npackage (so : Sorter) (v : Version) {t : NPackage} (h : JsonPackage html t.pkg)
    (hf : ∀ f, some f ∈ t.files → JsonFile html f.file) (hp : ProperPackage t) :
    TripN html (nPackageCodec so v) ({}, []) (t, []) (nKeptPackage v t, []) := by
  obtain ⟨j, es, h1, h2, h3, h4, h5⟩ := encode_npackage so v h hf hp
  refine ⟨j, h1, (by intro e; rw [e] at h2; cases h2), fun k hk => ?_⟩
  have hk' := like_trans _ h2 hk
  have hd := h5 k hk'
  show decodeNPackage v k ({}, []) = _
  cases v with
  | v21 =>
    simp only [decodeNPackage, hd, Res.bind_ok]
    rfl
  | v22 =>
    simp only [decodeNPackage, hd, Res.bind_ok, packageExtras_dec h3 (h4 (by decide)) hk']
    rfl
  | v23 =>
    simp only [decodeNPackage, hd, Res.bind_ok, packageExtras_dec h3 (h4 (by decide)) hk']
    rfl

/-! ## Documents -/

/-- The fields of a document with nil entries. -/
def nDocField (so : Sorter) (v : Version) (f : Field RawDoc) : Field NRaw :=
  if f.key = g!"packages" then nPackagesField so v
  else if f.key = g!"files" then docFilesField v
  else if f.key = g!"hasExtractedLicensingInfos" then otherLicensesField
  else if f.key = g!"annotations" then annotationsField
  else f.lift (·.raw) (fun b s => { s with raw := b })

/-- The keys of the lists of pointers. -/
def docListKeys : List Str := [g!"packages", g!"files", g!"hasExtractedLicensingInfos", g!"annotations"]

/-- What is kept of a package, with its unexported field. -/
def nKeptOwner (v : Version) (x : NPackage × List DocElementID) : NPackage × List DocElementID := (nKeptPackage v x.1, [])

/-- The step of a field of a document. -/
def nDocStep (v : Version) (t : NRaw) (f : Field RawDoc) : NRaw → NRaw :=
  if f.key = g!"packages" then stepOf t.packages (t.packages.map (Option.map (nKeptOwner v))) (fun b s => { s with packages := b })
  else if f.key = g!"files" then stepOf t.files (t.files.map (Option.map (nKeptFile v))) (fun b s => { s with files := b })
  else if f.key = g!"hasExtractedLicensingInfos" then stepOf t.otherLicenses t.otherLicenses (fun b s => { s with otherLicenses := b })
  else stepOf t.annotations (t.annotations.map (Option.map keptAnnotation)) (fun b s => { s with annotations := b })

theorem vacant_doc (so : Sorter) (v : Version) {d : RawDoc} (h1 : d.packages = []) (h2 : d.doc.files = []) (h3 : d.doc.otherLicenses = [])
    (h4 : d.doc.annotations = []) : ∀ x ∈ docFields so v, Vacant docListKeys d x := by
  unfold docFields docListKeys
  fields_vacant

theorem trip_ndocFields (so : Sorter) (v : Version) {n : NDoc} (h : NJsonDocument html n) (hp : Proper n) :
    FieldsTrip html (nRawOf n) (nDocFields so v) {}
      { raw := { doc := keptDoc v n.doc, relationships := n.relationships }
        packages := n.packages.map (Option.map fun p => (nKeptPackage v p, []))
        files := n.files.map (Option.map (nKeptFile v))
        otherLicenses := n.otherLicenses
        annotations := n.annotations.map (Option.map keptAnnotation) } := by
  obtain ⟨hp1, hp2, hp3, hp4, hp5, hp6⟩ := hp.empty
  obtain ⟨es, ht⟩ := trip_docFields_with so v h.rest n.relationships h.relationships
  have e1 : ({ rawDoc n.doc with relationships := n.relationships } : RawDoc) = (nRawOf n).raw := by
    simp [rawDoc, nRawOf, hp1]
  have e2 : ({ rawKept v n.doc with relationships := n.relationships } : RawDoc) = { doc := keptDoc v n.doc, relationships := n.relationships } := by
    simp [rawKept, keptDoc, hp1, hp4]
  rw [e1, e2] at ht
  have h1 : Step html (·.raw) (fun b s => { s with raw := b }) (nPackagesField so v) (nRawOf n)
      (stepOf (nRawOf n).packages ((nRawOf n).packages.map (Option.map (nKeptOwner v))) (fun b s => { s with packages := b })) :=
    step_list (fun z => trip_nilList fun b hb => by
      obtain ⟨o, ho, e⟩ := List.mem_map.1 hb
      cases o with
      | none => cases e
      | some p =>
        cases e
        exact trip_npackage so v (h.packages p ho).1 (h.packages p ho).2 (hp.packages p ho)) (fun _ _ _ => rfl) (fun _ _ => rfl)
  have h2 : Step html (·.raw) (fun b s => { s with raw := b }) (docFilesField v) (nRawOf n)
      (stepOf (nRawOf n).files ((nRawOf n).files.map (Option.map (nKeptFile v))) (fun b s => { s with files := b })) :=
    step_list (fun z => trip_nilList fun b hb => trip_nfile v (h.files b hb) (hp.files b hb)) (fun _ _ _ => rfl) (fun _ _ => rfl)
  have h3 : Step html (·.raw) (fun b s => { s with raw := b }) otherLicensesField (nRawOf n)
      (stepOf (nRawOf n).otherLicenses (nRawOf n).otherLicenses (fun b s => { s with otherLicenses := b })) :=
    step_list (fun z => by
      have := trip_nilList (html := html) (c := otherLicenseCodec) (zero := {}) (g := id) (z := z) (l := (nRawOf n).otherLicenses) fun b _ => trip_otherLicense
      rwa [Option.map_id, List.map_id] at this) (fun _ _ _ => rfl) (fun _ _ => rfl)
  have h4 : Step html (·.raw) (fun b s => { s with raw := b }) annotationsField (nRawOf n)
      (stepOf (nRawOf n).annotations ((nRawOf n).annotations.map (Option.map keptAnnotation)) (fun b s => { s with annotations := b })) :=
    step_list (fun z => trip_nilList fun b hb => trip_annotation (h.annotations b hb)) (fun _ _ _ => rfl) (fun _ _ => rfl)
  have hm := trips_mixed lens_raw (fun f => decide (f.key ∈ docListKeys)) (nDocStep v (nRawOf n)) (t := nRawOf n) ht (g := nDocField so v) ?_ {} rfl
  · have e : ((docFields so v).filter fun f => decide (f.key ∈ docListKeys)).foldl (fun acc f => nDocStep v (nRawOf n) f acc) {} =
        stepOf (nRawOf n).annotations ((nRawOf n).annotations.map (Option.map keptAnnotation)) (fun b s => { s with annotations := b })
        (stepOf (nRawOf n).otherLicenses (nRawOf n).otherLicenses (fun b s => { s with otherLicenses := b })
        (stepOf (nRawOf n).files ((nRawOf n).files.map (Option.map (nKeptFile v))) (fun b s => { s with files := b })
        (stepOf (nRawOf n).packages ((nRawOf n).packages.map (Option.map (nKeptOwner v))) (fun b s => { s with packages := b }) {}))) := rfl
    rw [e] at hm
    have e' : (nRawOf n).packages.map (Option.map (nKeptOwner v)) = n.packages.map (Option.map fun p => (nKeptPackage v p, [])) := by
      simp only [nRawOf, List.map_map]
      refine List.map_congr_left fun o _ => ?_
      cases o <;> rfl
    have e'' : (nRawOf n).packages = [] ↔ n.packages = [] := by simp [nRawOf]
    have hr := hm
    rw [e'] at hr
    simp only [stepOf, e''] at hr
    refine Eq.mp (congrArg (FieldsTrip html (nRawOf n) (nDocFields so v) {}) ?_) hr
    by_cases ha : n.packages = [] <;> by_cases hb : n.files = [] <;> by_cases hc : n.otherLicenses = [] <;> by_cases hd : n.annotations = [] <;>
      simp [ha, hb, hc, hd, nRawOf]
  · intro f hm
    unfold nDocField nDocStep
    have hv := vacant_doc so v (d := (nRawOf n).raw) rfl hp2 hp3 hp5 f hm
    by_cases k1 : f.key = g!"packages"
    · rw [if_pos (by simp [k1, docListKeys]), if_pos k1, if_pos k1]; exact ⟨hv (by simp [k1, docListKeys]), h1⟩
    · rw [if_neg k1, if_neg k1]
      by_cases k2 : f.key = g!"files"
      · rw [if_pos (by simp [k2, docListKeys]), if_pos k2, if_pos k2]; exact ⟨hv (by simp [k2, docListKeys]), h2⟩
      · rw [if_neg k2, if_neg k2]
        by_cases k3 : f.key = g!"hasExtractedLicensingInfos"
        · rw [if_pos (by simp [k3, docListKeys]), if_pos k3, if_pos k3]; exact ⟨hv (by simp [k3, docListKeys]), h3⟩
        · rw [if_neg k3, if_neg k3]
          by_cases k4 : f.key = g!"annotations"
          · rw [if_pos (by simp [k4, docListKeys]), if_pos k4]; exact ⟨hv (by simp [k4, docListKeys]), h4⟩
          · rw [if_neg (by simp only [docListKeys, List.mem_cons, List.not_mem_nil, or_false, decide_eq_true_eq]; rintro (h | h | h | h) <;> contradiction), if_neg k4]

theorem ndec_sorter (so so' : Sorter) (v : Version) (k : Json) (s : NRaw) :
    (structCodec (nDocFields so v)).dec k s = (structCodec (nDocFields so' v)).dec k s := by
  have h : ∀ es s, decodeEntries (nPackagesField so v) es s = decodeEntries (nPackagesField so' v) es s :=
    fun es s => decodeEntries_enc _ _ _ _ _ _ es s
  have e : ∀ so, nDocFields so v = ((docFields so v).take 8).map (nDocField so v) ++ nPackagesField so v :: ((docFields so v).drop 9).map (nDocField so v) :=
    fun so => rfl
  have e1 : ((docFields so v).take 8).map (nDocField so v) = ((docFields so' v).take 8).map (nDocField so' v) := rfl
  have e2 : ((docFields so v).drop 9).map (nDocField so v) = ((docFields so' v).drop 9).map (nDocField so' v) := rfl
  cases k with
  | obj es =>
    simp only [structCodec]
    rw [e so, e so', e1, e2, decodeFields_append, decodeFields_append]
    cases decodeFields es (((docFields so' v).take 8).map (nDocField so' v)) s with
    | ok t => show decodeFields es (_ :: _) t = decodeFields es (_ :: _) t; simp only [decodeFields, h]
    | err => rfl
    | panic => rfl
  | _ => rfl

theorem owners_nil (f : NPackage → PackageV) : ∀ l : List (Option NPackage), hasFilesRels (l.map (Option.map fun p => (f p, []))) = []
  | [] => rfl
  | none :: l => by simp [hasFilesRels, owners_nil f l]
  | some p :: l => by simp [hasFilesRels, owners_nil f l]

theorem somes_back {β : Type} : ∀ l : List (Option β), (l.filterMap id).map some = l.filter (·.isSome)
  | [] => rfl
  | none :: l => by simpa using somes_back l
  | some b :: l => by simpa using somes_back l

theorem njson_written (so so' : Sorter) (v : Version) {n : NDoc} (h : NJsonDocument html n) (hp : Proper n) :
    ∃ j, nWriteJson so v html n = .ok j ∧ ∀ k, Like false j k → decodeNDoc so' v k = .ok (nKeptDoc v n) := by
  obtain ⟨es, ht⟩ := trip_ndocFields so v h hp
  have henc := trips_encode ht
  have ekeys : (nDocFields so v).map (·.key) = (docFields so v).map (·.key) := rfl
  refine ⟨if html then (Json.obj es).escapeHtml else .obj es, ?_, fun k hk => ?_⟩
  · simp only [nWriteJson, structCodec, henc, Res.bind_ok]
  · have hk' : Like html (.obj es) k := like_trans' _ (like_write html _) hk
    have hs := trips_keys ht
    rw [ekeys] at hs
    have hdec := trips_obj ht (by rw [ekeys]; exact keys_doc so v) k hk'
    rw [ndec_sorter so so'] at hdec
    have hx := docExtras_dec hs hk'
    have e1 : (n.packages.map (Option.map fun p => (nKeptPackage v p, ([] : List DocElementID)))).map (Option.map Prod.fst) =
        n.packages.map (Option.map (nKeptPackage v)) := by
      rw [List.map_map]
      refine List.map_congr_left fun o _ => ?_
      cases o <;> rfl
    have e2 : (n.packages.map (Option.map fun p => (nKeptPackage v p, ([] : List DocElementID)))).map (Option.map plainOwner) =
        n.packages.map (Option.map fun p => ((nKeptPackage v p).pkg, [])) := by
      rw [List.map_map]
      refine List.map_congr_left fun o _ => ?_
      cases o <;> rfl
    have e3 : ∀ id, (loadRelationships id n.relationships [] (n.packages.map (Option.map fun p => ((nKeptPackage v p).pkg, [])))).map some =
        n.relationships.filter (·.isSome) := by
      intro id
      have hh : hasFilesRels (n.packages.map (Option.map fun p => ((nKeptPackage v p).pkg, []))) = [] := owners_nil (fun p => (nKeptPackage v p).pkg) _
      simp only [loadRelationships, describesRels, List.map_nil, addRels, hh]
      exact somes_back _
    cases v with
    | v21 =>
      simp only [decodeNDoc, hdec, Res.bind_ok, e1]
      rfl
    | v22 =>
      simp only [decodeNDoc, hdec, hx, Res.bind_ok, e1, e2, e3]
      rfl
    | v23 =>
      simp only [decodeNDoc, hdec, hx, Res.bind_ok, e1, e2, e3]
      rfl

end Verif
