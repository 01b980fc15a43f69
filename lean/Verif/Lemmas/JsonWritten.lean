import Verif.Lemmas.JsonPrint
import Verif.Lemmas.JsonDoc

/-!
# Written values are well spelt, plain and not deep
-/

namespace Verif
open Spec

/-- A value of at most `n` levels that is well spelt, has no array or object in place of an agent, and of which all
numbers are numbers a `float64` can hold. -/
structure FineJson (float : Str → Bool) (n : Nat) (j : Json) : Prop where
  spelt : WellSpelt j
  floats : j.floats float = true
  plain : j.agentsPlain = true
  flat : depth j ≤ n

variable {float : Str → Bool} {n m : Nat}

theorem FineJson.mono {j : Json} (h : FineJson float n j) (hm : n ≤ m) : FineJson float m j := { h with flat := Nat.le_trans h.flat hm }

theorem fine_null : FineJson float n .null := ⟨trivial, rfl, rfl, Nat.zero_le _⟩
theorem fine_bool (b : Bool) : FineJson float n (.bool b) := ⟨trivial, rfl, rfl, Nat.zero_le _⟩
theorem fine_str {raw : Str} (h : StringText raw) : FineJson float n (.str raw) := ⟨h, rfl, rfl, Nat.zero_le _⟩
theorem fine_num {l : Str} (h : NumberSpelt l) (hf : float l = true) : FineJson float n (.num l) := ⟨h, hf, rfl, Nat.zero_le _⟩

theorem fine_arr {l : List Json} : FineJson float (n + 1) (.arr l) ↔ ∀ j ∈ l, FineJson float n j := by
  induction l with
  | nil =>
    refine ⟨by simp, fun _ => ⟨trivial, rfl, rfl, ?_⟩⟩
    simp [depth, depthList]
  | cons j l ih =>
    constructor
    · rintro ⟨⟨h1, h2⟩, hf, hp, hd⟩
      rw [Json.floats, Json.floatsList, Bool.and_eq_true] at hf
      rw [Json.agentsPlain, Json.agentsPlainList, Bool.and_eq_true] at hp
      rw [depth, depthList] at hd
      have hd : max (depth j) (depthList l) ≤ n := by omega
      rw [Nat.max_le] at hd
      have := ih.1 ⟨h2, hf.2, hp.2, by rw [depth]; omega⟩
      intro k hk
      rcases List.mem_cons.1 hk with rfl | hk
      · exact ⟨h1, hf.1, hp.1, hd.1⟩
      · exact this k hk
    · intro h
      obtain ⟨h1, h2, h3, h4⟩ := h j (by simp)
      obtain ⟨h5, h6, h7, h8⟩ := ih.2 fun k hk => h k (by simp [hk])
      rw [depth] at h8
      refine ⟨⟨h1, h5⟩, ?_, ?_, ?_⟩
      · rw [Json.floats, Json.floatsList, Bool.and_eq_true]; exact ⟨h2, h6⟩
      · rw [Json.agentsPlain, Json.agentsPlainList, Bool.and_eq_true]; exact ⟨h3, h7⟩
      · rw [depth, depthList]
        have : max (depth j) (depthList l) ≤ n := Nat.max_le.2 ⟨h4, by omega⟩
        omega

theorem fine_obj {l : List (Str × Json)} : FineJson float (n + 1) (.obj l) ↔ ∀ e ∈ l, FineJson float n e.2 ∧ agentPlain e.1 e.2 = true := by
  induction l with
  | nil =>
    refine ⟨by simp, fun _ => ⟨trivial, rfl, rfl, ?_⟩⟩
    simp [depth, depthFields]
  | cons e l ih =>
    obtain ⟨key, j⟩ := e
    constructor
    · rintro ⟨⟨h1, h2⟩, hf, hp, hd⟩
      rw [Json.floats, Json.floatsFields, Bool.and_eq_true] at hf
      rw [Json.agentsPlain, Json.agentsPlainFields, Bool.and_eq_true, Bool.and_eq_true] at hp
      rw [depth, depthFields] at hd
      have hd : max (depth j) (depthFields l) ≤ n := by omega
      rw [Nat.max_le] at hd
      have := ih.1 ⟨h2, hf.2, hp.2, by rw [depth]; omega⟩
      intro k hk
      rcases List.mem_cons.1 hk with rfl | hk
      · exact ⟨⟨h1, hf.1, hp.1.2, hd.1⟩, hp.1.1⟩
      · exact this k hk
    · intro h
      obtain ⟨⟨h1, h2, h3, h4⟩, h0⟩ := h (key, j) (by simp)
      obtain ⟨h5, h6, h7, h8⟩ := ih.2 fun k hk => h k (by simp [hk])
      rw [depth] at h8
      refine ⟨⟨h1, h5⟩, ?_, ?_, ?_⟩
      · rw [Json.floats, Json.floatsFields, Bool.and_eq_true]; exact ⟨h2, h6⟩
      · rw [Json.agentsPlain, Json.agentsPlainFields, Bool.and_eq_true, Bool.and_eq_true]; exact ⟨⟨h0, h3⟩, h7⟩
      · rw [depth, depthFields]
        have : max (depth j) (depthFields l) ≤ n := Nat.max_le.2 ⟨h4, by omega⟩
        omega

theorem not_fine_arr {l : List Json} : ¬ FineJson float 0 (.arr l) := fun h => by
  have := h.flat
  rw [depth] at this
  omega

theorem not_fine_obj {l : List (Str × Json)} : ¬ FineJson float 0 (.obj l) := fun h => by
  have := h.flat
  rw [depth] at this
  omega

/-! ## Agents -/

theorem not_compound {j : Json} (h : FineJson float 0 j) : j.isCompound = false := by
  cases j with
  | arr => exact absurd h not_fine_arr
  | obj => exact absurd h not_fine_obj
  | _ => rfl

theorem agentPlain_scalar {j : Json} (h : FineJson float 0 j) (key : Str) : agentPlain key j = true := by
  have h2 : j.hasCompound = false := by
    cases j with
    | arr => exact absurd h not_fine_arr
    | _ => rfl
  unfold agentPlain
  rw [not_compound h, h2]
  split
  · rfl
  · split <;> rfl

theorem agentPlain_creators {j : Json} (h : FineJson float 1 j) : agentPlain g!"creators" j = true := by
  have h2 : j.hasCompound = false := by
    cases j with
    | arr l =>
      rw [Json.hasCompound, List.any_eq_false]
      intro k hk
      rw [not_compound (fine_arr.1 h k hk)]
      simp
    | _ => rfl
  unfold agentPlain
  rw [if_pos (by decide), h2]
  rfl

/-- A key that names no agents. -/
def otherKey (key : Str) : Bool :=
  !(sameKey g!"creators" key || (sameKey g!"annotator" key || sameKey g!"supplier" key || sameKey g!"originator" key))

theorem agentPlain_other {key : Str} (h : otherKey key = true) (j : Json) : agentPlain key j = true := by
  unfold otherKey at h
  rw [Bool.not_eq_true', Bool.or_eq_false_iff] at h
  unfold agentPlain
  rw [if_neg (by rw [h.1]; simp), if_neg (by rw [h.2]; simp)]

/-! ## The same value in another order or with other escapes -/

theorem like_compound {html : Bool} {j k : Json} (h : Like html j k) : k.isCompound = j.isCompound := by
  cases h <;> rfl

theorem likeList_compound {html : Bool} : ∀ {l m : List Json}, LikeList html l m → m.any (·.isCompound) = l.any (·.isCompound)
  | _, _, .nil => rfl
  | _, _, .cons h1 h2 => by rw [List.any_cons, List.any_cons, like_compound h1, likeList_compound h2]

theorem like_agentPlain {html : Bool} {j k : Json} (h : Like html j k) (key : Str) : agentPlain key k = agentPlain key j := by
  have h1 := like_compound h
  have h2 : k.hasCompound = j.hasCompound := by
    cases h with
    | arr h => exact likeList_compound h
    | _ => rfl
  unfold agentPlain
  rw [h1, h2]

mutual
theorem fine_like {html : Bool} : ∀ (j : Json) {k : Json} {n : Nat}, Like html j k → FineJson float n j → FineJson float n k
  | .null, _, _, .null, h => h
  | .bool _, _, _, .bool _, h => h
  | .num _, _, _, .num _, h => h
  | .str raw, _, _, .str _, h => by
    refine fine_str ?_
    have := h.spelt
    unfold htmlText
    split
    · exact stringText_html this
    · exact this
  | .arr l, _, 0, _, h => absurd h not_fine_arr
  | .obj l, _, 0, _, h => absurd h not_fine_obj
  | .arr l, _, _ + 1, .arr h1, h => fine_arr.2 (fineList_like l h1 (fine_arr.1 h))
  | .obj l, _, _ + 1, .obj h1 p, h => fine_obj.2 fun e he => fineFields_like l h1 (fine_obj.1 h) e (p.mem_iff.2 he)
theorem fineList_like {html : Bool} : ∀ (l : List Json) {m : List Json} {n : Nat}, LikeList html l m →
    (∀ j ∈ l, FineJson float n j) → ∀ j ∈ m, FineJson float n j
  | [], _, _, .nil, _ => by simp
  | j :: l, _, _, .cons h1 h2, h => by
    intro k hk
    rcases List.mem_cons.1 hk with e | hk
    · rw [e]; exact fine_like j h1 (h j (by simp))
    · exact fineList_like l h2 (fun x hx => h x (by simp [hx])) k hk
theorem fineFields_like {html : Bool} : ∀ (l : List (Str × Json)) {m : List (Str × Json)} {n : Nat}, LikeFields html l m →
    (∀ e ∈ l, FineJson float n e.2 ∧ agentPlain e.1 e.2 = true) → ∀ e ∈ m, FineJson float n e.2 ∧ agentPlain e.1 e.2 = true
  | [], _, _, .nil, _ => by simp
  | (key, j) :: l, _, _, .cons h1 h2, h => by
    intro k hk
    rcases List.mem_cons.1 hk with e | hk
    · rw [e]
      have := h (key, j) (by simp)
      exact ⟨fine_like j h1 this.1, (like_agentPlain h1 key).trans this.2⟩
    · exact fineFields_like l h2 (fun x hx => h x (by simp [hx])) k hk
end

/-! ## Encoders -/

/-- Whatever the encoder makes of the value has the property. -/
def Enc {β : Type} (c : Codec β) (b : β) (P : Json → Prop) : Prop := ∀ j, c.enc b = .ok j → P j

theorem enc_str (s : Str) : Enc strCodec s (FineJson float n) := by
  rintro j ⟨⟩
  exact fine_str (stringText_escaped s)

theorem enc_bool (b : Bool) : Enc boolCodec b (FineJson float n) := by
  rintro j ⟨⟩
  exact fine_bool b

theorem enc_int {k : Int} (h : float (itoa k) = true) : Enc intCodec k (FineJson float n) := by
  rintro j ⟨⟩
  exact fine_num (itoa_spelt k) h

theorem ofMarshaled_quote {s : Str} {j : Json} (h : ofMarshaled (jsonQuote s) = .ok j) : FineJson float n j := by
  have e : ofMarshaled (jsonQuote s) = .ok (.str (s.flatMap jsonEscapeChar)) := ofMarshaled_quoted _
  rw [e] at h
  cases h
  exact fine_str (stringText_escaped s)

theorem enc_text {β : Type} {toJson : β → Res Str} {ofJson : β → Str → Res β} {b : β}
    (h : ∀ t, toJson b = .ok t → t = [] ∨ ∃ s, t = jsonQuote s) : Enc (textCodec toJson ofJson) b (FineJson float n) := by
  intro j hj
  cases ht : toJson b with
  | err => simp only [textCodec, ht] at hj; cases hj
  | panic => simp only [textCodec, ht] at hj; cases hj
  | ok t =>
    simp only [textCodec, ht, Res.bind_ok] at hj
    rcases h t ht with rfl | ⟨s, rfl⟩
    · cases hj
    · exact ofMarshaled_quote hj

theorem enc_elementId (id : Str) : Enc elementIdCodec id (FineJson float n) :=
  enc_text fun _ ht => .inr ⟨_, (Res.ok.inj ht).symm⟩

theorem enc_documentId (id : Str) : Enc documentIdCodec id (FineJson float n) :=
  enc_text fun _ ht => .inr ⟨_, (Res.ok.inj ht).symm⟩

theorem enc_docElementId (r : DocElementID) : Enc docElementIdCodec r (FineJson float n) :=
  enc_text fun t ht => by
    unfold docElementIdToJson at ht
    repeat' split at ht
    all_goals first | cases ht; done | exact .inr ⟨_, (Res.ok.inj ht).symm⟩

theorem enc_creator (c : Creator) : Enc creatorCodec c (FineJson float n) :=
  enc_text fun t ht => by
    have ht := Res.ok.inj ht
    unfold creatorToJson at ht
    split at ht
    · exact .inr ⟨_, ht.symm⟩
    · exact .inl ht.symm

theorem enc_annotator (c : Annotator) : Enc annotatorCodec c (FineJson float n) :=
  enc_text fun t ht => by
    have ht := Res.ok.inj ht
    unfold annotatorToJson at ht
    split at ht
    · exact .inr ⟨_, ht.symm⟩
    · exact .inl ht.symm

theorem enc_supplier (s : Supplier) : Enc supplierCodec s (FineJson float n) :=
  enc_text fun t ht => by
    unfold supplierToJson at ht
    repeat' split at ht
    all_goals first | cases ht; done | exact .inr ⟨_, (Res.ok.inj ht).symm⟩

theorem enc_originator (s : Originator) : Enc originatorCodec s (FineJson float n) :=
  enc_text fun t ht => by
    unfold originatorToJson at ht
    repeat' split at ht
    all_goals first | cases ht; done | exact .inr ⟨_, (Res.ok.inj ht).symm⟩

theorem mapRes_mem {α β : Type} {f : α → Res β} : ∀ {l : List α} {m : List β}, mapRes f l = .ok m →
    ∀ b ∈ m, ∃ a ∈ l, f a = .ok b
  | [], _, h, b, hb => by cases h; cases hb
  | a :: l, _, h, b, hb => by
    rw [mapRes] at h
    cases hf : f a with
    | err => rw [hf] at h; cases h
    | panic => rw [hf] at h; cases h
    | ok c =>
      rw [hf, Res.bind_ok] at h
      cases hl : mapRes f l with
      | err => rw [hl] at h; cases h
      | panic => rw [hl] at h; cases h
      | ok m =>
        rw [hl, Res.bind_ok] at h
        cases h
        rcases List.mem_cons.1 hb with rfl | hb
        · exact ⟨a, by simp, hf⟩
        · obtain ⟨x, hx, h⟩ := mapRes_mem hl b hb
          exact ⟨x, by simp [hx], h⟩

theorem enc_list {β : Type} {zero : β} {c : Codec β} {l : List β} (h : ∀ b ∈ l, Enc c b (FineJson float n)) :
    Enc (listCodec zero c) l (FineJson float (n + 1)) := by
  intro j hj
  cases l with
  | nil => cases hj; exact fine_null
  | cons a l =>
    simp only [listCodec] at hj
    cases hm : mapRes c.enc (a :: l) with
    | err => rw [hm] at hj; cases hj
    | panic => rw [hm] at hj; cases hj
    | ok js =>
      rw [hm, Res.bind_ok] at hj
      cases hj
      refine fine_arr.2 fun k hk => ?_
      obtain ⟨b, hb, he⟩ := mapRes_mem hm k hk
      exact h b hb k he

theorem enc_ptrList {β : Type} {zero : β} {c : Codec β} {l : List β} (h : ∀ b ∈ l, Enc c b (FineJson float n)) :
    Enc (ptrListCodec zero c) l (FineJson float (n + 1)) := enc_list h

theorem enc_strs (l : List Str) : Enc strsCodec l (FineJson float (n + 1)) := enc_list fun s _ => enc_str s

theorem enc_ptr {β : Type} {zero : β} {c : Codec β} {o : Option β} (h : ∀ b, o = some b → Enc c b (FineJson float n)) :
    Enc (ptrCodec zero c) o (FineJson float n) := by
  intro j hj
  cases o with
  | none => cases hj; exact fine_null
  | some b => exact h b rfl j hj

/-- The entry of a field is fine. -/
def FieldFine {σ : Type} (float : Str → Bool) (n : Nat) (f : Field σ) (s : σ) : Prop :=
  Enc f.codec (f.get s) fun j => FineJson float n j ∧ agentPlain f.key j = true

/-- The entries of all fields are fine. -/
def AllFine {σ : Type} (float : Str → Bool) (n : Nat) (fs : List (Field σ)) (s : σ) : Prop := ∀ f ∈ fs, FieldFine float n f s

section
variable {σ : Type} {s : σ} {f : Field σ} {fs gs : List (Field σ)}

theorem fine_nil : AllFine float n [] s := by simp [AllFine]

theorem fine_cons (h : FieldFine float n f s) (t : AllFine float n fs s) : AllFine float n (f :: fs) s := by
  intro g hg
  rcases List.mem_cons.1 hg with rfl | hg
  · exact h
  · exact t g hg

theorem fine_append (h : AllFine float n fs s) (t : AllFine float n gs s) : AllFine float n (fs ++ gs) s := by
  intro g hg
  rcases List.mem_append.1 hg with hg | hg
  · exact h g hg
  · exact t g hg

theorem fine_only {b : Bool} (h : FieldFine float n f s) : AllFine float n (only b f) s := by
  cases b
  · exact fine_nil
  · exact fine_cons h fine_nil

theorem ff_scalar (h : Enc f.codec (f.get s) (FineJson float 0)) : FieldFine float n f s :=
  fun j hj => ⟨(h j hj).mono (Nat.zero_le _), agentPlain_scalar (h j hj) _⟩

theorem ff_other (hk : otherKey f.key = true) (h : Enc f.codec (f.get s) (FineJson float n)) : FieldFine float n f s :=
  fun j hj => ⟨h j hj, agentPlain_other hk j⟩

theorem fields_fine {es : List (Str × Json)} (h : AllFine float n fs s) (he : encodeFields s fs = .ok es) :
    ∀ e ∈ es, FineJson float n e.2 ∧ agentPlain e.1 e.2 = true := by
  induction fs generalizing es with
  | nil => cases he; simp
  | cons f fs ih =>
    rw [encodeFields] at he
    have ht : AllFine float n fs s := fun g hg => h g (by simp [hg])
    split at he
    · exact ih ht he
    · cases hj : f.codec.enc (f.get s) with
      | err => rw [hj] at he; cases he
      | panic => rw [hj] at he; cases he
      | ok j =>
        rw [hj, Res.bind_ok] at he
        cases hr : encodeFields s fs with
        | err => rw [hr] at he; cases he
        | panic => rw [hr] at he; cases he
        | ok es' =>
          rw [hr, Res.bind_ok] at he
          cases he
          intro e hm
          rcases List.mem_cons.1 hm with rfl | hm
          · exact h f (by simp) j hj
          · exact ih ht hr e hm

theorem enc_struct (h : AllFine float n fs s) : Enc (structCodec fs) s (FineJson float (n + 1)) := by
  intro j hj
  simp only [structCodec] at hj
  cases he : encodeFields s fs with
  | err => rw [he] at hj; cases hj
  | panic => rw [he] at hj; cases hj
  | ok es =>
    rw [he, Res.bind_ok] at hj
    cases hj
    exact fine_obj.2 (fields_fine h he)

theorem Enc.up {β : Type} {c : Codec β} {b : β} (h : Enc c b (FineJson float n)) (hm : n ≤ m) : Enc c b (FineJson float m) :=
  fun j hj => (h j hj).mono hm

end

/-! ## Documents -/

theorem enc_checksum (c : Checksum) : Enc checksumCodec c (FineJson float 1) :=
  enc_struct <| fine_cons (ff_scalar (enc_str _)) <| fine_cons (ff_scalar (enc_str _)) fine_nil

theorem enc_code (c : VerificationCode) : Enc codeCodec c (FineJson float 2) :=
  enc_struct <| fine_cons (ff_scalar (enc_str _)) <| fine_cons (ff_other rfl (enc_strs _)) fine_nil

/-- The numbers of the end of a range are numbers a `float64` can hold. -/
def FinePointer (float : Str → Bool) (p : RangePointer) : Prop := float (itoa p.offset) = true ∧ float (itoa p.lineNumber) = true

/-- The same for a snippet. -/
def FineSnippet (float : Str → Bool) (s : Snippet) : Prop :=
  ∀ r ∈ s.ranges, FinePointer float r.startPointer ∧ FinePointer float r.endPointer

theorem enc_pointer {p : RangePointer} (h : FinePointer float p) : Enc pointerCodec p (FineJson float 1) :=
  enc_struct <| fine_cons (ff_scalar (enc_int h.1)) <| fine_cons (ff_scalar (enc_int h.2)) <|
    fine_cons (ff_scalar (enc_elementId _)) fine_nil

theorem enc_range {r : SnippetRange} (h : FinePointer float r.startPointer ∧ FinePointer float r.endPointer) :
    Enc rangeCodec r (FineJson float 2) :=
  enc_struct <| fine_cons (ff_other rfl (enc_pointer h.1)) <| fine_cons (ff_other rfl (enc_pointer h.2)) fine_nil

theorem enc_externalDoc (r : ExternalDocumentRef) : Enc externalDocCodec r (FineJson float 2) :=
  enc_struct <| fine_cons (ff_scalar (enc_documentId _)) <| fine_cons (ff_scalar (enc_str _)) <|
    fine_cons (ff_other rfl (enc_checksum _)) fine_nil

theorem enc_creationInfo (i : CreationInfo) : Enc creationInfoCodec i (FineJson float 2) :=
  enc_struct <| fine_cons (ff_scalar (enc_str _)) <|
    fine_cons (fun j hj =>
      have h : FineJson float 1 j := enc_list (fun c _ => enc_creator c) j hj
      ⟨h, agentPlain_creators h⟩) <|
    fine_cons (ff_scalar (enc_str _)) <| fine_cons (ff_scalar (enc_str _)) fine_nil

theorem enc_annotation (a : Annotation) : Enc annotationCodec a (FineJson float 1) :=
  enc_struct <| fine_cons (ff_scalar (enc_annotator _)) <| fine_cons (ff_scalar (enc_str _)) <| fine_cons (ff_scalar (enc_str _)) <|
    fine_cons (ff_scalar (enc_str _)) fine_nil

theorem enc_relationship (r : Relationship) : Enc relationshipCodec r (FineJson float 1) :=
  enc_struct <| fine_cons (ff_scalar (enc_docElementId _)) <| fine_cons (ff_scalar (enc_docElementId _)) <|
    fine_cons (ff_scalar (enc_str _)) <| fine_cons (ff_scalar (enc_str _)) fine_nil

theorem enc_otherLicense (l : OtherLicense) : Enc otherLicenseCodec l (FineJson float 2) :=
  enc_struct <| fine_cons (ff_scalar (enc_str _)) <| fine_cons (ff_scalar (enc_str _)) <| fine_cons (ff_scalar (enc_str _)) <|
    fine_cons (ff_other rfl (enc_strs _)) <| fine_cons (ff_scalar (enc_str _)) fine_nil

theorem enc_artifact (a : ArtifactOfProject) : Enc artifactCodec a (FineJson float 1) :=
  enc_struct <| fine_cons (ff_scalar (enc_str _)) <| fine_cons (ff_scalar (enc_str _)) <| fine_cons (ff_scalar (enc_str _)) fine_nil

theorem enc_snippet (v : Version) {s : Snippet} (h : FineSnippet float s) : Enc (snippetCodec v) s (FineJson float 4) :=
  enc_struct <| fine_cons (ff_scalar (enc_elementId _)) <| fine_cons (ff_scalar (enc_elementId _)) <|
    fine_cons (ff_other rfl (enc_list fun r hr => enc_range (h r hr))) <|
    fine_cons (ff_scalar (enc_str _)) <| fine_cons (ff_other rfl (enc_strs _)) <| fine_cons (ff_scalar (enc_str _)) <|
    fine_cons (ff_scalar (enc_str _)) <| fine_cons (ff_scalar (enc_str _)) <| fine_cons (ff_scalar (enc_str _)) fine_nil

theorem enc_file (v : Version) (f : FileV) : Enc (fileCodec v) f (FineJson float 3) :=
  enc_struct <| fine_append (fine_append (fine_append (fine_append (fine_append
    (fine_cons (ff_scalar (enc_str _)) <| fine_cons (ff_scalar (enc_elementId _)) <| fine_cons (ff_other rfl (enc_strs _)) <|
      fine_cons (ff_other rfl (enc_list fun c _ => enc_checksum c)) <| fine_cons (ff_scalar (enc_str _)) <|
      fine_cons (ff_other rfl (enc_strs _)) <| fine_cons (ff_scalar (enc_str _)) <| fine_cons (ff_scalar (enc_str _)) fine_nil)
    (fine_only (ff_other rfl (enc_ptrList fun a _ => enc_artifact a))))
    (fine_cons (ff_scalar (enc_str _)) <| fine_cons (ff_scalar (enc_str _)) <| fine_cons (ff_other rfl (enc_strs _)) fine_nil))
    (fine_only (ff_other rfl (enc_strs _))))
    (fine_only (ff_other rfl (enc_strs _))))
    (fine_cons (ff_other rfl (enc_list fun a _ => enc_annotation a)) fine_nil)

theorem enc_externalRef (v : Version) (r : PackageExternalRef) : Enc (externalRefCodec v) r (FineJson float 1) := by
  intro j hj
  exact enc_struct (fs := externalRefFields) (fine_cons (ff_scalar (enc_str _)) <| fine_cons (ff_scalar (enc_str _)) <|
    fine_cons (ff_scalar (enc_str _)) <| fine_cons (ff_scalar (enc_str _)) fine_nil) j hj

theorem packageFields_fine (v : Version) (p : PackageV) : AllFine float 4 (packageFields v) p := by
  refine fine_append ?_ (fine_cons ?_ ?_)
  · exact fine_cons (ff_scalar (enc_str _)) <| fine_cons (ff_scalar (enc_elementId _)) <| fine_cons (ff_scalar (enc_str _)) <|
      fine_cons (ff_scalar (enc_str _)) <| fine_cons (ff_scalar (enc_ptr fun s _ => enc_supplier s)) <|
      fine_cons (ff_scalar (enc_ptr fun s _ => enc_originator s)) <| fine_cons (ff_scalar (enc_str _)) <|
      fine_cons (ff_scalar (enc_bool _)) fine_nil
  · cases v with
    | v21 => exact ff_other rfl ((enc_code _).up (by decide))
    | v22 => exact ff_other rfl ((enc_code _).up (by decide))
    | v23 => exact ff_other rfl (enc_ptr fun c _ => (enc_code c).up (by decide))
  · exact fine_append (fine_append (fine_append (fine_append (fine_append (fine_append
      (fine_cons (ff_other rfl (enc_list fun c _ => (enc_checksum c).up (by decide))) <|
        fine_cons (ff_scalar (enc_str _)) <| fine_cons (ff_scalar (enc_str _)) <| fine_cons (ff_scalar (enc_str _)) <|
        fine_cons (ff_other rfl (enc_strs _)) <| fine_cons (ff_scalar (enc_str _)) <| fine_cons (ff_scalar (enc_str _)) <|
        fine_cons (ff_scalar (enc_str _)) <| fine_cons (ff_scalar (enc_str _)) <| fine_cons (ff_scalar (enc_str _)) <|
        fine_cons (ff_scalar (enc_str _)) <|
        fine_cons (ff_other rfl (enc_ptrList fun r _ => (enc_externalRef v r).up (by decide))) fine_nil)
      (fine_only (ff_other rfl (enc_strs _))))
      (fine_only (ff_scalar (enc_str _))))
      (fine_only (ff_scalar (enc_str _))))
      (fine_only (ff_scalar (enc_str _))))
      (fine_only (ff_scalar (enc_str _))))
      (fine_cons (ff_other rfl (enc_ptrList fun f _ => enc_file v f)) <|
        fine_cons (ff_other rfl (enc_list fun a _ => (enc_annotation a).up (by decide))) fine_nil)

theorem enc_package (so : Sorter) (v : Version) (p : PackageV × List DocElementID) : Enc (packageCodec so v) p (FineJson float 5) := by
  intro j hj
  cases v with
  | v21 => exact enc_struct (packageFields_fine .v21 p.1) j hj
  | v23 => exact enc_struct (packageFields_fine .v23 p.1) j hj
  | v22 =>
    simp only [packageCodec, encodePackage] at hj
    cases he : encodeFields p.1 (packageFields .v22) with
    | err => rw [he] at hj; cases hj
    | panic => rw [he] at hj; cases hj
    | ok es =>
      rw [he, Res.bind_ok] at hj
      have h := fields_fine (packageFields_fine (float := float) .v22 p.1) he
      split at hj
      · cases hj
        refine fine_like _ (like_sort so _) (fine_obj.2 fun e hm => h e (List.mem_filter.1 hm).1)
      · cases hj
        exact fine_obj.2 h

theorem enc_doc (so : Sorter) (v : Version) (d : RawDoc) (h : ∀ s ∈ d.doc.snippets, FineSnippet float s) :
    Enc (structCodec (docFields so v)) d (FineJson float 7) :=
  enc_struct <| fine_cons (ff_scalar (enc_str _)) <| fine_cons (ff_scalar (enc_str _)) <| fine_cons (ff_scalar (enc_elementId _)) <|
    fine_cons (ff_scalar (enc_str _)) <| fine_cons (ff_scalar (enc_str _)) <|
    fine_cons (ff_other rfl (enc_list fun r _ => (enc_externalDoc r).up (by decide))) <| fine_cons (ff_scalar (enc_str _)) <|
    fine_cons (ff_other rfl (enc_ptr fun i _ => (enc_creationInfo i).up (by decide))) <|
    fine_cons (ff_other rfl (enc_list fun o _ => enc_ptr fun p _ => enc_package so v p)) <|
    fine_cons (ff_other rfl (enc_ptrList fun f _ => (enc_file v f).up (by decide))) <|
    fine_cons (ff_other rfl (enc_ptrList fun l _ => (enc_otherLicense l).up (by decide))) <|
    fine_cons (ff_other rfl (enc_list fun o _ => enc_ptr fun r _ => (enc_relationship r).up (by decide))) <|
    fine_cons (ff_other rfl (enc_ptrList fun a _ => (enc_annotation a).up (by decide))) <|
    fine_cons (ff_other rfl (enc_list fun s hs => (enc_snippet v (h s hs)).up (by decide))) fine_nil

theorem writeJson_fine {so : Sorter} {v : Version} {html : Bool} {d : Doc} {j : Json} (h : ∀ s ∈ d.snippets, FineSnippet float s)
    (hj : writeJson so v html d = .ok j) : FineJson float 7 j := by
  unfold writeJson at hj
  cases he : (structCodec (docFields so v)).enc
      { doc := d, packages := d.packages.map fun p => some (p, []), relationships := d.relationships.map some } with
  | err => rw [he] at hj; cases hj
  | panic => rw [he] at hj; cases hj
  | ok k =>
    rw [he, Res.bind_ok] at hj
    cases hj
    exact fine_like k (like_write html k) (enc_doc so v _ h k he)

end Verif
