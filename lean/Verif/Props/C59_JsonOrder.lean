import Verif.Lemmas.JsonOrder
import Verif.Lemmas.JsonSafe
import Verif.Props.C58_JsonText

/-!
# C59: the order of the entries of JSON objects does not matter; reading never panics
-/

namespace Verif
open Spec

/-- **C59.** Reading JSON never panics. -/
theorem C59_never_panics (so : Sorter) (copy : Version → Version → Doc → Doc) (float : Str → Bool) (odd : Str → Res Doc)
    (ho : ∀ s, odd s ≠ .panic) (isPtr : Bool) (target : Version) (s : Str) :
    readJsonText so copy float odd isPtr target s ≠ .panic := by
  unfold readJsonText
  repeat' first
    | exact err_safe
    | exact readJsonInto_safe _ _ _ _ _
    | exact ho s
    | split

theorem statesVersion_like {es es' : List (Str × Json)} {v : Version} (hl : Like false (.obj es) (.obj es')) (h : StatesVersion es v) :
    StatesVersion es' v := by
  obtain ⟨raw, name, h1, h2, h3⟩ := h
  cases hl with
  | obj hf p =>
    obtain ⟨k, hk, hm⟩ := likeFields_mem hf h1
    cases hk
    exact ⟨raw, name, p.mem_iff.1 hm, h2, h3⟩

theorem readJsonInto_like (so so' : Sorter) (copy : Version → Version → Doc → Doc) (target : Version) {es es' : List (Str × Json)}
    (ht : tidy (.obj es) = true) (hp : Json.agentsPlain (.obj es) = true) (hl : Like false (.obj es) (.obj es')) (d : Doc)
    (h : readJsonInto so copy true target (.obj es) = .ok d) : readJsonInto so' copy true target (.obj es') = .ok d := by
  obtain ⟨es0, raw, name, v, d0, he, h1, h2, h3, h4, -, h5⟩ := C38_json so copy target _ d h
  cases he
  have hd := steady_document v _ _ _ hp hl ((decodeDoc_iff so ht).1 h4)
  obtain ⟨raw', name', h1', h2', h3'⟩ := statesVersion_like hl ⟨raw, name, h1, h2, h3⟩
  have ht' := like_tidy _ hl ht
  simp only [readJsonInto, Bool.not_true, Bool.false_eq_true, if_false, lastEntry_of_mem (tidy_obj ht').1 h1', h2',
    Option.bind_some, versionNamed_iff.2 h3', (decodeDoc_iff so' ht').2 hd, Res.bind_ok, convertDocument]
  simp only [readJsonInto, Bool.not_true, Bool.false_eq_true, if_false, lastEntry_of_mem (tidy_obj ht).1 h1, h2,
    Option.bind_some, versionNamed_iff.2 h3, h4, Res.bind_ok, convertDocument] at h
  exact h

/-- **C59.** Two JSON values that differ in the order of the entries of objects, at any depth, are read as the same
document, or both are not. -/
theorem C59_order (so so' : Sorter) (copy : Version → Version → Doc → Doc) (target : Version) (j k : Json)
    (ht : tidy j = true) (hp : j.agentsPlain = true) (hl : Like false j k) :
    readJsonInto so copy true target j = readJsonInto so' copy true target k := by
  cases hl with
  | obj hf p =>
    have hl := Like.obj hf p
    cases h : readJsonInto so copy true target _ with
    | ok d => exact (readJsonInto_like so so' copy target ht hp hl d h).symm
    | panic => exact absurd h (readJsonInto_safe _ _ _ _ _)
    | err =>
      cases h' : readJsonInto so' copy true target _ with
      | err => rfl
      | panic => exact absurd h' (readJsonInto_safe _ _ _ _ _)
      | ok d =>
        have := readJsonInto_like so' so copy target (like_tidy _ hl ht) (like_plain _ hl hp) (like_symm _ hl) d h'
        rw [h] at this
        cases this
  | _ => rfl

/-- **C59.** The same for texts. -/
theorem C59_text (so so' : Sorter) (copy : Version → Version → Doc → Doc) (float : Str → Bool) (odd : Str → Res Doc) (target : Version)
    (s s' : Str) (j k : Json) (hs : JsonTextOf s j) (hs' : JsonTextOf s' k)
    (ht : tidy j = true) (hp : j.agentsPlain = true) (hl : Like false j k) :
    readJsonText so copy float odd true target s = readJsonText so' copy float odd true target s' := by
  rw [readJsonText_of so copy float odd target hs, readJsonText_of so' copy float odd target hs', hp, like_plain _ hl hp]
  have : j.floats float = k.floats float := by
    rw [Bool.eq_iff_iff]
    exact ⟨like_floats _ hl, like_floats _ (like_symm _ hl)⟩
  rw [this, C59_order so so' copy target j k ht hp hl, if_pos rfl, if_pos rfl]

/-- The object of `text58` with its entries in another order. -/
def text59 : Str :=
  g!"{\"a\":[-1.5e+3,true,{}],\"SPDXID\":\"SPDXRef-DOCUMENT\",\"spdxVersion\":\"SPDX-2.3\",\"name\":\"x\\n\"}"

/-- It meets the hypotheses. -/
theorem C59_sample : ∃ j k, j ≠ k ∧ JsonTextOf text58 j ∧ JsonTextOf text59 k ∧ tidy j = true ∧ j.agentsPlain = true ∧ Like false j k := by
  refine ⟨.obj json58, .obj [(g!"a", .arr [.num g!"-1.5e+3", .bool true, .obj []]), (g!"SPDXID", .str g!"SPDXRef-DOCUMENT"),
    (g!"spdxVersion", .str g!"SPDX-2.3"), (g!"name", .str g!"x\\n")], by simp [json58], scanJson_iff.1 (by rfl),
    scanJson_iff.1 (by rfl), by decide +kernel, by decide +kernel, .obj (likeFields_refl _) ?_⟩
  unfold json58
  refine (List.Perm.append (l₁ := [_, _]) (l₂ := [_, _]) (.refl _) (.swap ..)).trans ?_
  exact List.perm_append_comm (l₁ := [_, _]) (l₂ := [_, _])

/-- Where a key occurs twice the order does matter: the last value counts. -/
theorem C59_twice_false : ∃ (j k : Json), Like false j k ∧ j.agentsPlain = true ∧
    readJsonInto insertionSorter (fun _ _ d => d) true .v23 j ≠ readJsonInto insertionSorter (fun _ _ d => d) true .v23 k := by
  refine ⟨.obj [(g!"spdxVersion", .str g!"SPDX-2.3"), (g!"name", .str g!"x"), (g!"name", .str g!"y")],
    .obj [(g!"spdxVersion", .str g!"SPDX-2.3"), (g!"name", .str g!"y"), (g!"name", .str g!"x")],
    .obj (likeFields_refl _) (.cons _ (.swap ..)), by decide +kernel, ?_⟩
  intro h
  have : (match readJsonInto insertionSorter (fun _ _ d => d) true .v23
      (.obj [(g!"spdxVersion", .str g!"SPDX-2.3"), (g!"name", .str g!"x"), (g!"name", .str g!"y")]) with
    | .ok d => decide (d.name = g!"y")
    | _ => false) = true := by decide +kernel
  rw [h] at this
  exact absurd this (by decide +kernel)

/-- An array or object in place of a supplier is read by its text, so that the order of its entries matters. -/
theorem C59_agent_false : ∃ (j k : Json), Like false j k ∧ tidy j = true ∧
    readJsonInto insertionSorter (fun _ _ d => d) true .v23 j ≠ readJsonInto insertionSorter (fun _ _ d => d) true .v23 k := by
  let j (es : List (Str × Json)) : Json := .obj [(g!"spdxVersion", .str g!"SPDX-2.3"), (g!"packages", .arr [.obj [(g!"supplier", .obj es)]])]
  let supplier (j : Json) : List (Option Supplier) := match readJsonInto insertionSorter (fun _ _ d => d) true .v23 j with
    | .ok d => d.packages.map (·.supplier)
    | _ => []
  refine ⟨j [(g!"a", .null), (g!"b", .bool true)], j [(g!"b", .bool true), (g!"a", .null)], ?_, by decide +kernel, ?_⟩
  · exact .obj (.cons (.str _) (.cons (.arr (.cons (.obj (.cons (.obj (likeFields_refl _) (.swap ..)) .nil) (.refl _)) .nil)) .nil)) (.refl _)
  · intro h
    have h1 : supplier (j [(g!"a", .null), (g!"b", .bool true)]) = [some { supplierType := g!"{\"a\"", supplier := g!"null,\"b\":true}" }] := by
      decide +kernel
    have h2 : supplier (j [(g!"b", .bool true), (g!"a", .null)]) = [some { supplierType := g!"{\"b\"", supplier := g!"true,\"a\":null}" }] := by
      decide +kernel
    simp only [supplier] at h1 h2
    rw [h, h2] at h1
    exact absurd h1 (by decide)

end Verif
