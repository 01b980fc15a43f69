import Verif.Lemmas.JsonGrammar
import Verif.Spec.OddAgents

/-!
# Scanning with agents as their text
-/

namespace Verif
open Spec

theorem roleUnder_eq (key : Str) : roleUnder key = expectedUnder key := by
  unfold roleUnder expectedUnder agentKeys
  simp only [List.find?_cons, List.find?_nil]
  cases sameKey g!"creators" key <;> cases sameKey g!"annotator" key <;> cases sameKey g!"supplier" key <;>
    cases sameKey g!"originator" key <;> rfl

theorem element_eq (role : AgentRole) : role.element = expectedIn role := by cases role <;> rfl

theorem asAgent_eq {role : AgentRole} {s t rest : Str} {j : Json} (h : s = t ++ rest) : asAgent role s rest j = seenAs role t j := by
  subst h
  unfold asAgent seenAs
  rw [List.length_append, Nat.add_sub_cancel, List.take_left]

/-! ## One step of scanning -/

theorem scanValueA_skip (role : AgentRole) (n d : Nat) (s : Str) : scanValueA role n d (skipJsonSpace s) = scanValueA role n d s := by
  cases n with
  | zero => simp [scanValueA]
  | succ n => rw [scanValueA, scanValueA, skip_skip]

theorem scanElementsA_skip (role : AgentRole) (n d : Nat) (s : Str) : scanElementsA role n d (skipJsonSpace s) = scanElementsA role n d s := by
  cases n with
  | zero => simp [scanElementsA]
  | succ n => rw [scanElementsA, scanElementsA, scanValueA_skip]

theorem scanMembersA_skip (n d : Nat) (s : Str) : scanMembersA n d (skipJsonSpace s) = scanMembersA n d s := by
  cases n with
  | zero => simp [scanMembersA]
  | succ n => rw [scanMembersA, scanMembersA, skip_skip]

theorem scanValueA_end_array {role : AgentRole} {n d : Nat} {s t u : Str} (h : skipJsonSpace s = '[' :: t) (h' : skipJsonSpace t = ']' :: u) :
    scanValueA role (n + 1) (d + 1) s = some (asAgent role ('[' :: t) u (.arr []), u) := by
  rw [scanValueA, h]
  show (match skipJsonSpace t with
    | ']' :: u => some (asAgent role ('[' :: t) u (Json.arr []), u)
    | u => (scanElementsA role.element n d u).map fun r : List Json × Str => (asAgent role ('[' :: t) r.2 (Json.arr r.1), r.2)) = _
  rw [h']
  rfl

theorem scanValueA_array {role : AgentRole} {n d : Nat} {s t : Str} (h : skipJsonSpace s = '[' :: t) (h' : ∀ u, skipJsonSpace t ≠ ']' :: u) :
    scanValueA role (n + 1) (d + 1) s =
      (scanElementsA role.element n d t).map fun r : List Json × Str => (asAgent role ('[' :: t) r.2 (.arr r.1), r.2) := by
  rw [scanValueA, h]
  show (match skipJsonSpace t with
    | ']' :: u => some (asAgent role ('[' :: t) u (Json.arr []), u)
    | u => (scanElementsA role.element n d u).map fun r : List Json × Str => (asAgent role ('[' :: t) r.2 (Json.arr r.1), r.2)) = _
  split
  · next u hu => exact absurd hu (h' u)
  · rw [scanElementsA_skip]

theorem scanValueA_end_object {role : AgentRole} {n d : Nat} {s t u : Str} (h : skipJsonSpace s = '{' :: t) (h' : skipJsonSpace t = '}' :: u) :
    scanValueA role (n + 1) (d + 1) s = some (asAgent role ('{' :: t) u (.obj []), u) := by
  rw [scanValueA, h]
  show (match skipJsonSpace t with
    | '}' :: u => some (asAgent role ('{' :: t) u (Json.obj []), u)
    | u => (scanMembersA n d u).map fun r : List (Str × Json) × Str => (asAgent role ('{' :: t) r.2 (Json.obj r.1), r.2)) = _
  rw [h']
  rfl

theorem scanValueA_object {role : AgentRole} {n d : Nat} {s t : Str} (h : skipJsonSpace s = '{' :: t) (h' : ∀ u, skipJsonSpace t ≠ '}' :: u) :
    scanValueA role (n + 1) (d + 1) s =
      (scanMembersA n d t).map fun r : List (Str × Json) × Str => (asAgent role ('{' :: t) r.2 (.obj r.1), r.2) := by
  rw [scanValueA, h]
  show (match skipJsonSpace t with
    | '}' :: u => some (asAgent role ('{' :: t) u (Json.obj []), u)
    | u => (scanMembersA n d u).map fun r : List (Str × Json) × Str => (asAgent role ('{' :: t) r.2 (Json.obj r.1), r.2)) = _
  split
  · next u hu => exact absurd hu (h' u)
  · rw [scanMembersA_skip]

theorem scanElementsA_end {role : AgentRole} {n d : Nat} {s t u : Str} {j : Json} (h : scanValueA role n d s = some (j, t)) (h' : skipJsonSpace t = ']' :: u) :
    scanElementsA role (n + 1) d s = some ([j], u) := by
  rw [scanElementsA, h]
  show (match skipJsonSpace t with
    | ',' :: t => (scanElementsA role n d t).map fun r : List Json × Str => (j :: r.1, r.2)
    | ']' :: t => some ([j], t)
    | _ => none) = _
  rw [h']
  rfl

theorem scanElementsA_comma {role : AgentRole} {n d : Nat} {s t u : Str} {j : Json} (h : scanValueA role n d s = some (j, t)) (h' : skipJsonSpace t = ',' :: u) :
    scanElementsA role (n + 1) d s = (scanElementsA role n d u).map fun r => (j :: r.1, r.2) := by
  rw [scanElementsA, h]
  show (match skipJsonSpace t with
    | ',' :: t => (scanElementsA role n d t).map fun r : List Json × Str => (j :: r.1, r.2)
    | ']' :: t => some ([j], t)
    | _ => none) = _
  rw [h']
  rfl

/-- The first member of an object. -/
structure ScannedMemberA (n d : Nat) (s key : Str) (j : Json) (t : Str) : Prop where
  scanned : ∃ t0 raw t1 t2, skipJsonSpace s = '"' :: t0 ∧ scanString t0 = some (raw, t1) ∧ unescape raw = some key ∧
    skipJsonSpace t1 = ':' :: t2 ∧ scanValueA (roleUnder key) n d t2 = some (j, t)

theorem scanMembersA_step {n d : Nat} {s key t : Str} {j : Json} (h : ScannedMemberA n d s key j t) :
    scanMembersA (n + 1) d s = match skipJsonSpace t with
      | ',' :: t => (scanMembersA n d t).map fun r : List (Str × Json) × Str => ((key, j) :: r.1, r.2)
      | '}' :: t => some ([(key, j)], t)
      | _ => none := by
  obtain ⟨t0, raw, t1, t2, h1, h2, h3, h4, h5⟩ := h.scanned
  rw [scanMembersA, h1]
  show (match scanString t0 with
      | none => none
      | some (raw, t) => match unescape raw, skipJsonSpace t with
        | some key, ':' :: t => match scanValueA (roleUnder key) n d t with
          | none => none
          | some (j, t) => match skipJsonSpace t with
            | ',' :: t => (scanMembersA n d t).map fun r : List (Str × Json) × Str => ((key, j) :: r.1, r.2)
            | '}' :: t => some ([(key, j)], t)
            | _ => none
        | _, _ => none) = _
  rw [h2]
  show (match unescape raw, skipJsonSpace t1 with
        | some key, ':' :: t => match scanValueA (roleUnder key) n d t with
          | none => none
          | some (j, t) => match skipJsonSpace t with
            | ',' :: t => (scanMembersA n d t).map fun r : List (Str × Json) × Str => ((key, j) :: r.1, r.2)
            | '}' :: t => some ([(key, j)], t)
            | _ => none
        | _, _ => none) = _
  rw [h3, h4]
  show (match scanValueA (roleUnder key) n d t2 with
          | none => none
          | some (j, t) => match skipJsonSpace t with
            | ',' :: t => (scanMembersA n d t).map fun r : List (Str × Json) × Str => ((key, j) :: r.1, r.2)
            | '}' :: t => some ([(key, j)], t)
            | _ => none) = _
  rw [h5]

theorem scanMembersA_end {n d : Nat} {s key t u : Str} {j : Json} (h : ScannedMemberA n d s key j t)
    (h' : skipJsonSpace t = '}' :: u) : scanMembersA (n + 1) d s = some ([(key, j)], u) := by
  rw [scanMembersA_step h, h']
  rfl

theorem scanMembersA_comma {n d : Nat} {s key t u : Str} {j : Json} (h : ScannedMemberA n d s key j t)
    (h' : skipJsonSpace t = ',' :: u) :
    scanMembersA (n + 1) d s = (scanMembersA n d u).map fun r => ((key, j) :: r.1, r.2) := by
  rw [scanMembersA_step h, h']
  rfl

/-! ## What is spelt is scanned -/

theorem speltAs_spelt {role : AgentRole} {t : Str} {j j' : Json} (h : SpeltAs role t j j') : Spelt t j := by
  induction h with
  | null => exact .null
  | true => exact .true
  | false => exact .false
  | num h => exact .num h
  | str h => exact .str h
  | noElements h => exact .noElements h
  | arr hne ho _ ih => exact .arr hne ho ih
  | noMembers h => exact .noMembers h
  | obj hne ho _ ih => exact .obj hne ho ih

theorem spelt_speltAs {t : Str} {j : Json} (h : Spelt t j) : ∀ role, ∃ j', SpeltAs role t j j' := by
  induction h with
  | null => exact fun _ => ⟨_, .null⟩
  | true => exact fun _ => ⟨_, .true⟩
  | false => exact fun _ => ⟨_, .false⟩
  | num h => exact fun _ => ⟨_, .num h⟩
  | str h => exact fun _ => ⟨_, .str h⟩
  | noElements h => exact fun _ => ⟨_, .noElements h⟩
  | @arr ps hne ho _ ih =>
    intro role
    have : ∀ p, ∃ j', p ∈ ps → SpeltAs (expectedIn role) p.text p.value j' := by
      intro p
      by_cases hp : p ∈ ps
      · obtain ⟨j', h⟩ := ih p hp (expectedIn role)
        exact ⟨j', fun _ => h⟩
      · exact ⟨.null, fun h => absurd h hp⟩
    obtain ⟨f, hf⟩ := Classical.axiomOfChoice this
    exact ⟨_, .arr hne ho hf⟩
  | noMembers h => exact fun _ => ⟨_, .noMembers h⟩
  | @obj ms hne ho _ ih =>
    intro role
    have : ∀ m, ∃ j', m ∈ ms → SpeltAs (expectedUnder m.key) m.part.text m.part.value j' := by
      intro m
      by_cases hm : m ∈ ms
      · obtain ⟨j', h⟩ := ih m hm (expectedUnder m.key)
        exact ⟨j', fun _ => h⟩
      · exact ⟨.null, fun h => absurd h hm⟩
    obtain ⟨g, hg⟩ := Classical.axiomOfChoice this
    exact ⟨_, .obj hne ho hg⟩

/-- The value is scanned off every text that begins with its spelling. -/
def ScannedA (role : AgentRole) (t : Str) (j j' : Json) : Prop :=
  ∀ fuel d b r, Blank b → NumEnds r → 2 * t.length + 1 ≤ fuel → depth j ≤ d → scanValueA role fuel d (b ++ t ++ r) = some (j', r)

theorem scanValueA_number {role : AgentRole} {l r : Str} (h : NumberSpelt l) (hr : NumEnds r) (n d : Nat) {b : Str} (hb : Blank b) :
    scanValueA role (n + 1) d (b ++ l ++ r) = some (.num l, r) := by
  rw [scanValueA, skip_spelt (.num h) hb, ← scanLiteral_number h hr]
  obtain ⟨c, u, rfl, hc⟩ := number_head h
  have ne : ∀ p, isDigit p = false → p ≠ '-' → c ≠ p := by
    rintro p h1 h2 rfl
    rcases hc with h | h
    · exact h2 h
    · rw [h1] at h; cases h
  split
  · next e => cases e; exact absurd rfl (ne _ (by decide) (by decide))
  · next e => cases e; exact absurd rfl (ne _ (by decide) (by decide))
  · next e => cases e; exact absurd rfl (ne _ (by decide) (by decide))
  · rfl

theorem scanElementsA_complete (role : AgentRole) (f : ElementText → Json) (ps : List ElementText) (hne : ps ≠ []) (ho : ∀ p ∈ ps, p.Ok) (h : ∀ p ∈ ps, ScannedA role p.text p.value (f p))
    (fuel d : Nat) (r : Str) (hf : 2 * (join g!"," (ps.map (·.all))).length + 2 ≤ fuel) (hd : depthList (ps.map (·.value)) ≤ d) :
    scanElementsA role fuel d (join g!"," (ps.map (·.all)) ++ g!"]" ++ r) = some (ps.map f, r) := by
  induction ps generalizing fuel with
  | nil => exact absurd rfl hne
  | cons p ps ih =>
    obtain ⟨hb, ha⟩ := ho p (by simp)
    have hp := h p (by simp)
    rw [List.map_cons, depthList, Nat.max_le] at hd
    cases fuel with
    | zero => omega
    | succ n =>
      by_cases hps : ps = []
      · subst hps
        simp only [List.map_cons, List.map_nil, join, ElementText.all, List.length_append] at hf
        have e : join g!"," ([p].map (·.all)) ++ g!"]" ++ r = p.before ++ p.text ++ (p.after ++ ']' :: r) := by
          simp [join, ElementText.all]
        rw [e, scanElementsA_end (hp n d _ _ hb (ends_blank ha (by simp)) (by omega) hd.1)
          ((skip_blank ha).trans (skip_self (by decide)))]
        rfl
      · have hps' : ps.map (·.all) ≠ [] := by simpa using hps
        rw [List.map_cons, joinComma_cons _ hps'] at hf ⊢
        simp only [List.length_append, List.length_cons, List.length_nil] at hf
        have hl : p.text.length ≤ p.all.length := by simp only [ElementText.all, List.length_append]; omega
        have e : p.all ++ g!"," ++ join g!"," (ps.map (·.all)) ++ g!"]" ++ r =
            p.before ++ p.text ++ (p.after ++ ',' :: (join g!"," (ps.map (·.all)) ++ g!"]" ++ r)) := by
          simp [ElementText.all]
        rw [e, scanElementsA_comma (hp n d _ _ hb (ends_blank ha (by simp)) (by omega) hd.1)
          ((skip_blank ha).trans (skip_self (by decide))),
          ih hps (fun q hq => ho q (by simp [hq])) (fun q hq => h q (by simp [hq])) n (by omega) hd.2]
        rfl

theorem scanMembersA_complete (g : MemberText → Json) (ms : List MemberText) (hne : ms ≠ []) (ho : ∀ m ∈ ms, m.Ok)
    (h : ∀ m ∈ ms, ScannedA (roleUnder m.key) m.part.text m.part.value (g m))
    (fuel d : Nat) (r : Str) (hf : 2 * (join g!"," (ms.map (·.all))).length + 2 ≤ fuel)
    (hd : depthFields (ms.map fun m => (m.key, m.part.value)) ≤ d) :
    scanMembersA fuel d (join g!"," (ms.map (·.all)) ++ g!"}" ++ r) = some (ms.map fun m => (m.key, g m), r) := by
  induction ms generalizing fuel with
  | nil => exact absurd rfl hne
  | cons p ps ih =>
    obtain ⟨hk, hk', hraw, hkey, hb, ha⟩ := ho p (by simp)
    have hp := h p (by simp)
    rw [List.map_cons, depthFields, Nat.max_le] at hd
    cases fuel with
    | zero => omega
    | succ n =>
      have go : ∀ c w, c = ',' ∨ c = '}' → 2 * p.all.length ≤ n →
          ScannedMemberA n d (p.all ++ c :: w) p.key (g p) (p.part.after ++ c :: w) := by
        intro c w hc hn
        have e : p.all ++ c :: w = p.beforeKey ++ '"' :: (p.raw ++ g!"\"" ++ (p.afterKey ++ ':' ::
            (p.part.before ++ p.part.text ++ (p.part.after ++ c :: w)))) := by
          simp [MemberText.all, ElementText.all]
        simp only [MemberText.all, ElementText.all, List.length_append, List.length_cons, List.length_nil] at hn
        rw [e]
        exact ⟨_, _, _, _, (skip_blank hk).trans (skip_self (by decide)), scanString_complete hraw _, hkey,
          (skip_blank hk').trans (skip_self (by decide)),
          hp n d _ _ hb (ends_blank ha (by rcases hc with rfl | rfl <;> simp)) (by omega) hd.1⟩
      by_cases hps : ps = []
      · subst hps
        simp only [List.map_cons, List.map_nil, join] at hf
        have e : join g!"," ([p].map (·.all)) ++ g!"}" ++ r = p.all ++ '}' :: r := by
          simp [join]
        rw [e, scanMembersA_end (go '}' r (by simp) (by omega)) ((skip_blank ha).trans (skip_self (by decide)))]
        rfl
      · have hps' : ps.map (·.all) ≠ [] := by simpa using hps
        rw [List.map_cons, joinComma_cons _ hps'] at hf ⊢
        simp only [List.length_append, List.length_cons, List.length_nil] at hf
        have e : p.all ++ g!"," ++ join g!"," (ps.map (·.all)) ++ g!"}" ++ r =
            p.all ++ ',' :: (join g!"," (ps.map (·.all)) ++ g!"}" ++ r) := by
          simp
        rw [e, scanMembersA_comma (go ',' _ (by simp) (by omega)) ((skip_blank ha).trans (skip_self (by decide))),
          ih hps (fun q hq => ho q (by simp [hq])) (fun q hq => h q (by simp [hq])) n (by omega) hd.2]
        rfl

theorem speltAs_scanned {role : AgentRole} {t : Str} {j j' : Json} (h : SpeltAs role t j j') : ScannedA role t j j' := by
  induction h with
  | null =>
    intro fuel d b r hb hr hf hd
    cases fuel with
    | zero => omega
    | succ n => rw [scanValueA, skip_spelt .null hb]; rfl
  | true =>
    intro fuel d b r hb hr hf hd
    cases fuel with
    | zero => omega
    | succ n => rw [scanValueA, skip_spelt .true hb]; rfl
  | false =>
    intro fuel d b r hb hr hf hd
    cases fuel with
    | zero => omega
    | succ n => rw [scanValueA, skip_spelt .false hb]; rfl
  | num h =>
    intro fuel d b r hb hr hf hd
    cases fuel with
    | zero => omega
    | succ n => exact scanValueA_number h hr n d hb
  | @str role raw h =>
    intro fuel d b r hb hr hf hd
    cases fuel with
    | zero => omega
    | succ n =>
      rw [scanValueA, skip_spelt (.str h) hb]
      show (scanString (raw ++ g!"\"" ++ r)).map _ = _
      rw [scanString_complete h]; rfl
  | @noElements role x h =>
    intro fuel d b r hb hr hf hd
    cases fuel with
    | zero => omega
    | succ n =>
      cases d with
      | zero => simp [depth] at hd
      | succ d =>
        have e : g!"[" ++ x ++ g!"]" ++ r = '[' :: (x ++ ']' :: r) := by simp
        rw [scanValueA_end_array ((skip_spelt (.noElements h) hb _).trans e) ((skip_blank h).trans (skip_self (by decide))), asAgent_eq e.symm]
  | @noMembers role x h =>
    intro fuel d b r hb hr hf hd
    cases fuel with
    | zero => omega
    | succ n =>
      cases d with
      | zero => simp [depth] at hd
      | succ d =>
        have e : g!"{" ++ x ++ g!"}" ++ r = '{' :: (x ++ '}' :: r) := by simp
        rw [scanValueA_end_object ((skip_spelt (.noMembers h) hb _).trans e) ((skip_blank h).trans (skip_self (by decide))), asAgent_eq e.symm]
  | @arr role ps f hne ho h ih =>
    intro fuel d b r hb hr hf hd
    simp only [List.length_append, List.length_cons, List.length_nil] at hf
    cases fuel with
    | zero => omega
    | succ n =>
      cases d with
      | zero => simp [depth] at hd
      | succ d =>
        rw [depth] at hd
        have key := scanElementsA_complete role.element f ps hne ho (by rw [element_eq]; exact ih) n d r (by omega) (by omega)
        have e : g!"[" ++ join g!"," (ps.map (·.all)) ++ g!"]" ++ r = '[' :: (join g!"," (ps.map (·.all)) ++ g!"]" ++ r) := by
          simp
        rw [scanValueA_array ((skip_spelt (.arr hne ho fun p hp => speltAs_spelt (h p hp)) hb _).trans e), key]
        · rw [Option.map_some, asAgent_eq e.symm]
        · intro u hu
          cases ps with
          | nil => exact absurd rfl hne
          | cons p ps =>
            exfalso
            obtain ⟨w, hw⟩ : ∃ w, join g!"," ((p :: ps).map (·.all)) ++ g!"]" ++ r = p.before ++ p.text ++ w := by
              cases ps with
              | nil => exact ⟨p.after ++ ']' :: r, by simp [join, ElementText.all]⟩
              | cons q ps =>
                rw [List.map_cons, joinComma_cons _ (by simp)]
                exact ⟨p.after ++ (g!"," ++ join g!"," ((q :: ps).map (·.all)) ++ g!"]" ++ r), by simp [ElementText.all]⟩
            have hp := speltAs_spelt (h p (by simp))
            rw [hw, skip_spelt hp (ho p (by simp)).1] at hu
            obtain ⟨c, x, hx, -, hc⟩ := spelt_head hp
            rw [hx] at hu
            cases hu
            exact hc rfl
  | @obj role ms g hne ho h ih =>
    intro fuel d b r hb hr hf hd
    simp only [List.length_append, List.length_cons, List.length_nil] at hf
    cases fuel with
    | zero => omega
    | succ n =>
      cases d with
      | zero => simp [depth] at hd
      | succ d =>
        rw [depth] at hd
        have key := scanMembersA_complete g ms hne ho (fun m hm => by rw [roleUnder_eq]; exact ih m hm) n d r (by omega) (by omega)
        have e : g!"{" ++ join g!"," (ms.map (·.all)) ++ g!"}" ++ r = '{' :: (join g!"," (ms.map (·.all)) ++ g!"}" ++ r) := by
          simp
        rw [scanValueA_object ((skip_spelt (.obj hne ho fun p hp => speltAs_spelt (h p hp)) hb _).trans e), key]
        · rw [Option.map_some, asAgent_eq e.symm]
        · intro u hu
          cases ms with
          | nil => exact absurd rfl hne
          | cons p ps =>
            exfalso
            obtain ⟨w, hw⟩ : ∃ w, join g!"," ((p :: ps).map (·.all)) ++ g!"}" ++ r = p.beforeKey ++ '"' :: w := by
              cases ps with
              | nil => exact ⟨p.raw ++ '"' :: (p.afterKey ++ ':' :: (p.part.all ++ '}' :: r)), by simp [join, MemberText.all]⟩
              | cons q ps =>
                rw [List.map_cons, joinComma_cons _ (by simp)]
                exact ⟨p.raw ++ '"' :: (p.afterKey ++ ':' :: (p.part.all ++ ',' ::
                  (join g!"," ((q :: ps).map (·.all)) ++ g!"}" ++ r))), by simp [MemberText.all]⟩
            rw [hw, skip_blank (ho p (by simp)).1, skip_self (by decide)] at hu
            cases hu

theorem scanJsonA_of {s : Str} {j j' : Json} (h : JsonTextAs s j j') : scanJsonA s = some j' := by
  obtain ⟨a, t, b, rfl, ha, hb, h, hd⟩ := h
  unfold scanJsonA
  rw [speltAs_scanned h _ maxNestingDepth a b ha (ends_blanks hb) (by simp only [List.length_append]; omega) hd]
  simp [skip_nil_iff.2 hb]

theorem jsonTextAs_of {s : Str} {j : Json} (h : JsonTextOf s j) : ∃ j', JsonTextAs s j j' := by
  obtain ⟨a, t, b, h1, ha, hb, h, hd⟩ := h
  obtain ⟨j', h'⟩ := spelt_speltAs h .other
  exact ⟨j', a, t, b, h1, ha, hb, h', hd⟩

theorem jsonTextOf_of {s : Str} {j j' : Json} (h : JsonTextAs s j j') : JsonTextOf s j := by
  obtain ⟨a, t, b, h1, ha, hb, h, hd⟩ := h
  exact ⟨a, t, b, h1, ha, hb, speltAs_spelt h, hd⟩

end Verif
