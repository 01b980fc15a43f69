import Verif.Spec.JsonText
import Verif.Model.OddAgents

/-!
# Specification: JSON text with arrays and objects in place of agents

The grammar of `Spec/JsonText`, with the values as an SPDX reader sees them: an array or object in place of an agent
counts as its text.
-/

namespace Verif.Spec
open Verif

/-- The keys under which agents stand. -/
def agentKeys : List (Str × AgentRole) :=
  [(g!"creators", .agents), (g!"annotator", .agent), (g!"supplier", .agent), (g!"originator", .agent)]

/-- What is expected under a key, upper or lower case. -/
def expectedUnder (key : Str) : AgentRole := ((agentKeys.find? fun e => sameKey e.1 key).map (·.2)).getD .other

/-- What is expected of the elements of an array. -/
def expectedIn (role : AgentRole) : AgentRole := if role = .agents then .agent else .other

/-- A value `j` of the text `t`, as it is seen where `role` is expected. -/
def seenAs (role : AgentRole) (t : Str) (j : Json) : Json := if role = .agent then .str t else j

/-- A text spells the value `j`, which is seen as another where `role` is expected; `f` and `g` say what elements and
members are seen as. -/
inductive SpeltAs : AgentRole → Str → Json → Json → Prop
  | null {role} : SpeltAs role g!"null" .null .null
  | true {role} : SpeltAs role g!"true" (.bool true) (.bool true)
  | false {role} : SpeltAs role g!"false" (.bool false) (.bool false)
  | num {role} {l : Str} (h : NumberSpelt l) : SpeltAs role l (.num l) (.num l)
  | str {role} {raw : Str} (h : StringText raw) : SpeltAs role (g!"\"" ++ raw ++ g!"\"") (.str raw) (.str raw)
  | noElements {role} {b : Str} (h : Blank b) : SpeltAs role (g!"[" ++ b ++ g!"]") (.arr []) (seenAs role (g!"[" ++ b ++ g!"]") (.arr []))
  | arr {role} {ps : List ElementText} {f : ElementText → Json} (hne : ps ≠ []) (ho : ∀ p ∈ ps, p.Ok)
      (h : ∀ p ∈ ps, SpeltAs (expectedIn role) p.text p.value (f p)) :
    SpeltAs role (g!"[" ++ join g!"," (ps.map (·.all)) ++ g!"]") (.arr (ps.map (·.value)))
      (seenAs role (g!"[" ++ join g!"," (ps.map (·.all)) ++ g!"]") (.arr (ps.map f)))
  | noMembers {role} {b : Str} (h : Blank b) : SpeltAs role (g!"{" ++ b ++ g!"}") (.obj []) (seenAs role (g!"{" ++ b ++ g!"}") (.obj []))
  | obj {role} {ms : List MemberText} {g : MemberText → Json} (hne : ms ≠ []) (ho : ∀ m ∈ ms, m.Ok)
      (h : ∀ m ∈ ms, SpeltAs (expectedUnder m.key) m.part.text m.part.value (g m)) :
    SpeltAs role (g!"{" ++ join g!"," (ms.map (·.all)) ++ g!"}") (.obj (ms.map fun m => (m.key, m.part.value)))
      (seenAs role (g!"{" ++ join g!"," (ms.map (·.all)) ++ g!"}") (.obj (ms.map fun m => (m.key, g m))))

/-- A text is JSON for `j`, which is seen as `j'`. -/
def JsonTextAs (s : Str) (j j' : Json) : Prop :=
  ∃ a t b, s = a ++ t ++ b ∧ Blank a ∧ Blank b ∧ SpeltAs .other t j j' ∧ depth j ≤ 10000

end Verif.Spec
