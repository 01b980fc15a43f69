import Verif.Spec.NilEntries
import Verif.Lemmas.JsonDocument

/-!
# Decoding structures part of whose fields are those of another structure
-/

namespace Verif
open Spec

variable {σ τ β : Type} {n : Bool}

/-! ## Objects without some keys -/

theorem entries_without {keys : List Str} {key : Str} {es : List (Str × Json)} (h : (keys.any fun k => sameKey k key) = false) :
    entries key (without keys es) = entries key es := by
  unfold entries without
  rw [List.filter_filter]
  congr 1
  refine List.filter_congr fun e _ => ?_
  cases hk : sameKey key e.1 with
  | false => rfl
  | true =>
    rw [Bool.true_and, Bool.not_eq_true', List.any_eq_false]
    intro k hm hs
    refine List.any_eq_false.1 h k hm ?_
    simp only [sameKey, decide_eq_true_eq] at *
    exact hs.trans hk.symm

theorem entries_without_mem {keys : List Str} {key : Str} {es : List (Str × Json)} (h : key ∈ keys) :
    entries key (without keys es) = [] := by
  unfold entries without
  rw [List.filter_filter, List.map_eq_nil_iff, List.filter_eq_nil_iff]
  intro e _ he
  rw [Bool.and_eq_true, Bool.not_eq_true', List.any_eq_false] at he
  exact he.2 key h he.1

theorem tidyFields_iff' {es : List (Str × Json)} : tidyFields es n = true ↔ ∀ e ∈ es, tidy e.2 n = true := by
  induction es with
  | nil => simp [tidyFields]
  | cons e es ih => obtain ⟨k, j⟩ := e; simp [tidyFields, ih]

theorem tidy_without {keys : List Str} {es : List (Str × Json)} (h : tidy (.obj es) n = true) :
    tidy (.obj (without keys es)) n = true := by
  obtain ⟨h1, h2⟩ := tidy_obj h
  rw [tidy, Bool.and_eq_true, decide_eq_true_eq]
  refine ⟨h1.sublist (List.filter_sublist.map _), tidyFields_iff'.2 fun e he => h2 e (List.mem_filter.1 he).1⟩

theorem has_without {keys : List Str} {key : Str} {es : List (Str × Json)} {says : Json → β → Prop} {unset x : β}
    (h : (keys.any fun k => sameKey k key) = false) : Has (without keys es) key says unset x ↔ Has es key says unset x := by
  unfold Has
  rw [entries_without h]

theorem has_without_mem {keys : List Str} {key : Str} {es : List (Str × Json)} {says : Json → β → Prop} {unset x : β}
    (h : key ∈ keys) : Has (without keys es) key says unset x ↔ x = unset := by
  unfold Has
  rw [entries_without_mem h]
  simp

theorem without_absent (keys : List Str) (es : List (Str × Json)) : Absent n (without keys es) keys :=
  .inr fun _ hk => entries_without_mem hk

theorem Absent.mono {es : List (Str × Json)} {a b : List Str} (h : Absent n es b) (hs : ∀ k ∈ a, k ∈ b) : Absent n es a :=
  h.imp_right fun h k hk => h k (hs k hk)

/-! ## Fields of a part -/

/-- A part of a structure. -/
structure Lens (get : τ → σ) (set : σ → τ → τ) : Prop where
  getSet : ∀ s t, get (set s t) = s
  setGet : ∀ t, set (get t) t = t
  setSet : ∀ s s' t, set s (set s' t) = set s t

/-- A field that has nothing to do with the part. -/
structure Apart (get : τ → σ) (set : σ → τ → τ) (f : Field τ) : Prop where
  get_ : ∀ s t, f.get (set s t) = f.get t
  set_ : ∀ b s t, f.set b (set s t) = set s (f.set b t)
  part : ∀ b t, get (f.set b t) = get t

/-- The result in a structure. -/
def mapOk (f : σ → τ) : Res σ → Res τ
  | .ok s => .ok (f s)
  | .err => .err
  | .panic => .panic

theorem mapOk_iff {f : σ → τ} {r : Res σ} {t : τ} : mapOk f r = .ok t ↔ ∃ s, r = .ok s ∧ f s = t := by
  cases r <;> simp [mapOk]

variable {get : τ → σ} {set : σ → τ → τ}

theorem decodeEntries_lift (L : Lens get set) (f : Field σ) : ∀ (es : List (Str × Json)) (t : τ),
    decodeEntries (f.lift get set) es t = mapOk (set · t) (decodeEntries f es (get t))
  | [], t => by simp [decodeEntries, mapOk, L.setGet]
  | (k, j) :: es, t => by
    rw [decodeEntries, decodeEntries]
    show (if sameKey f.key k = true then _ else _) = _
    split
    · show (do let b ← f.codec.dec j (f.get (get t)); _) = _
      cases f.codec.dec j (f.get (get t)) with
      | ok b =>
        rw [Res.bind_ok, Res.bind_ok, decodeEntries_lift L]
        show mapOk (fun s => set s (set (f.set b (get t)) t)) (decodeEntries f es (get (set (f.set b (get t)) t))) = _
        rw [L.getSet]
        cases decodeEntries f es (f.set b (get t)) <;> simp [mapOk, L.setSet]
      | err => rfl
      | panic => rfl
    · exact decodeEntries_lift L f es t

theorem decodeEntries_apart {f : Field τ} (h : Apart get set f) (s : σ) : ∀ (es : List (Str × Json)) (t : τ),
    decodeEntries f es (set s t) = mapOk (set s) (decodeEntries f es t)
  | [], t => rfl
  | (k, j) :: es, t => by
    rw [decodeEntries, decodeEntries]
    split
    · rw [h.get_]
      cases f.codec.dec j (f.get t) with
      | ok b => rw [Res.bind_ok, Res.bind_ok, h.set_, decodeEntries_apart h]
      | err => rfl
      | panic => rfl
    · exact decodeEntries_apart h s es t

theorem decodeFields_apart {es : List (Str × Json)} (s : σ) : ∀ {fs : List (Field τ)} (_ : ∀ f ∈ fs, Apart get set f) (t : τ),
    decodeFields es fs (set s t) = mapOk (set s) (decodeFields es fs t)
  | [], _, t => rfl
  | f :: fs, h, t => by
    rw [decodeFields, decodeFields, decodeEntries_apart (h f (by simp))]
    cases decodeEntries f es t with
    | ok t' => exact decodeFields_apart s (fun g hg => h g (by simp [hg])) t'
    | err => rfl
    | panic => rfl

/-- Decoding the fields of a structure, some of which are those of a part. -/
theorem decode_mixed (L : Lens get set) {es : List (Str × Json)} {g : Field σ → Field τ} (special : Field σ → Bool) :
    ∀ {fs : List (Field σ)}, (∀ f ∈ fs, if special f then Apart get set (g f) else g f = f.lift get set) → ∀ {t r : τ},
    (decodeFields es (fs.map g) t = .ok r ↔ ∃ s t', decodeFields es (fs.filter fun f => !special f) (get t) = .ok s ∧
      decodeFields es ((fs.filter special).map g) t = .ok t' ∧ r = set s t')
  | [], _, t, r => by
    simp only [List.map_nil, List.filter_nil, decodeFields, Res.ok.injEq]
    constructor
    · rintro rfl; exact ⟨_, _, rfl, rfl, (L.setGet _).symm⟩
    · rintro ⟨s, t', rfl, rfl, rfl⟩; exact (L.setGet _).symm
  | f :: fs, h, t, r => by
    have hf := h f (by simp)
    have hs : ∀ f' ∈ (fs.filter special).map g, Apart get set f' := by
      intro f' hf'
      obtain ⟨f'', h1, rfl⟩ := List.mem_map.1 hf'
      have := h f'' (by simp [(List.mem_filter.1 h1).1])
      rwa [if_pos (List.mem_filter.1 h1).2] at this
    have ih := fun t r => decode_mixed L (es := es) (g := g) special (fs := fs) (fun f' hf' => h f' (List.mem_cons_of_mem _ hf')) (t := t) (r := r)
    cases hsp : special f with
    | true =>
      rw [hsp, if_pos rfl] at hf
      simp only [List.map_cons, List.filter_cons, hsp, Bool.not_true, Bool.false_eq_true, if_false, if_true, decodeFields]
      have hg : ∀ (es : List (Str × Json)) (t t' : τ), decodeEntries (g f) es t = .ok t' → get t' = get t := by
        intro es t t' h
        exact decodeEntries_keep get hf.part h
      cases hd : decodeEntries (g f) es t with
      | ok t1 =>
        rw [Res.bind_ok, ih, hg _ _ _ hd]
        rfl
      | err =>
        constructor
        · intro h; cases h
        · rintro ⟨s, t', _, h, _⟩; cases h
      | panic =>
        constructor
        · intro h; cases h
        · rintro ⟨s, t', _, h, _⟩; cases h
    | false =>
      rw [hsp, if_neg Bool.false_ne_true] at hf
      simp only [List.map_cons, List.filter_cons, hsp, Bool.not_false, Bool.false_eq_true, if_false, if_true, decodeFields, hf,
        decodeEntries_lift L]
      cases hd : decodeEntries f es (get t) with
      | ok s1 =>
        show decodeFields es (fs.map g) (set s1 t) = _ ↔ ∃ s t', decodeFields es _ s1 = _ ∧ _
        rw [ih, L.getSet]
        simp only [decodeFields_apart s1 hs, mapOk_iff]
        constructor
        · rintro ⟨s, t', h1, ⟨t1, h2, rfl⟩, rfl⟩; exact ⟨s, t1, h1, h2, by rw [L.setSet]⟩
        · rintro ⟨s, t', h1, h2, rfl⟩; exact ⟨s, _, h1, ⟨t', h2, rfl⟩, by rw [L.setSet]⟩
      | err =>
        constructor
        · intro h; cases h
        · rintro ⟨s, t', h, _⟩; cases h
      | panic =>
        constructor
        · intro h; cases h
        · rintro ⟨s, t', h, _⟩; cases h

theorem decodeEntries_of_entries (f : Field σ) {es es' : List (Str × Json)} (h : entries f.key es = entries f.key es') (s : σ) :
    decodeEntries f es s = decodeEntries f es' s := by
  have key : ∀ (l : List (Str × Json)) (s : σ), decodeEntries f l s = decodeEntries f ((entries f.key l).map fun j => (f.key, j)) s := by
    intro l
    induction l with
    | nil => intro s; rfl
    | cons e l ih =>
      obtain ⟨k, j⟩ := e
      intro s
      rw [decodeEntries]
      cases hk : sameKey f.key k with
      | true =>
        have : entries f.key ((k, j) :: l) = j :: entries f.key l := by simp [entries, hk]
        rw [this, List.map_cons, decodeEntries, if_pos rfl, if_pos (sameKey_self _)]
        cases f.codec.dec j (f.get s) with
        | ok b => exact ih _
        | err => rfl
        | panic => rfl
      | false =>
        have : entries f.key ((k, j) :: l) = entries f.key l := by simp [entries, hk]
        rw [this, if_neg Bool.false_ne_true]
        exact ih s
  rw [key es, key es', h]

/-- Fields left out are fields whose keys are not there. -/
theorem decodeFields_without {keys : List Str} {es : List (Str × Json)} : ∀ {fs : List (Field σ)},
    (∀ f ∈ fs, f.key ∉ keys → (keys.any fun k => sameKey k f.key) = false) → ∀ s,
    decodeFields es (fs.filter fun f => !decide (f.key ∈ keys)) s = decodeFields (without keys es) fs s
  | [], _, s => rfl
  | f :: fs, h, s => by
    have ih := decodeFields_without (keys := keys) (es := es) (fun g hg => h g (List.mem_cons_of_mem _ hg))
    by_cases hk : f.key ∈ keys
    · have e : decodeEntries f (without keys es) s = .ok s := by
        rw [decodeEntries_of_entries f (es' := []) (by rw [entries_without_mem hk]; rfl)]; rfl
      rw [List.filter_cons, if_neg (by simp [hk]), decodeFields, e, Res.bind_ok, ih]
    · have e : decodeEntries f (without keys es) s = decodeEntries f es s :=
        decodeEntries_of_entries f (entries_without (h f (by simp) hk)) s
      rw [List.filter_cons, if_pos (by simp [hk]), decodeFields, decodeFields, e]
      cases decodeEntries f es s with
      | ok t => exact ih t
      | err => rfl
      | panic => rfl

/-- Both together. -/
theorem decode_parts (L : Lens get set) {es : List (Str × Json)} {g : Field σ → Field τ} (keys : List Str) {fs : List (Field σ)}
    (hg : ∀ f ∈ fs, if f.key ∈ keys then Apart get set (g f) else g f = f.lift get set)
    (hk : ∀ f ∈ fs, f.key ∉ keys → (keys.any fun k => sameKey k f.key) = false) {t r : τ} :
    decodeFields es (fs.map g) t = .ok r ↔ ∃ s t', decodeFields (without keys es) fs (get t) = .ok s ∧
      decodeFields es ((fs.filter fun f => decide (f.key ∈ keys)).map g) t = .ok t' ∧ r = set s t' := by
  rw [decode_mixed L (fun f => decide (f.key ∈ keys)) (by simpa using hg), decodeFields_without hk]

end Verif
