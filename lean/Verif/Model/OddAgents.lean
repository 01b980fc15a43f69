import Verif.Model.JsonText

/-!
# Agents that are arrays or objects

A value with its own `UnmarshalJSON` is given its text as it stands (`decodeState.array` and `object` of
encoding/json/decode.go: `u.UnmarshalJSON(d.data[start:d.off])`).  The methods of agents (spdx/v2/common/creation_info.go:22-35,
annotation.go:20-35, package.go:21-41, 64-82) do not ask whether the text is a string, so this text is an agent's.
-/

namespace Verif

/-- What a value is read for: an agent, a list of agents, or something else. -/
inductive AgentRole
  | agent | agents | other
  deriving DecidableEq

/-- What the value under a key is read for: `creators` (spdx/v2/v2_3/creation_info.go:18), `annotator`
(spdx/v2/v2_3/annotation.go:13), `supplier` and `originator` (spdx/v2/v2_3/package.go:39, 44); same in v2_2, v2_1.  In
other objects there is nothing under these keys. -/
def roleUnder (key : Str) : AgentRole :=
  if sameKey g!"creators" key then .agents
  else if sameKey g!"annotator" key || sameKey g!"supplier" key || sameKey g!"originator" key then .agent
  else .other

/-- What the elements of an array are read for. -/
def AgentRole.element : AgentRole → AgentRole
  | .agents => .agent
  | _ => .other

/-- An array or object `j` of which `rest` is left of the text `s`: its text itself, as if between quotes, if an agent is expected. -/
def asAgent (role : AgentRole) (s rest : Str) (j : Json) : Json :=
  if role = .agent then .str (s.take (s.length - rest.length)) else j

mutual
/-- `scanValue` with the arrays and objects in place of agents as the text they are. -/
def scanValueA : (role : AgentRole) → (fuel depth : Nat) → Str → Option (Json × Str)
  | _, 0, _, _ => none
  | role, n + 1, depth, s => match skipJsonSpace s with
    | '"' :: t => (scanString t).map fun r => (.str r.1, r.2)
    | '[' :: t => match depth with
      | 0 => none
      | depth + 1 => match skipJsonSpace t with
        | ']' :: u => some (asAgent role ('[' :: t) u (.arr []), u)
        | u => (scanElementsA role.element n depth u).map fun r => (asAgent role ('[' :: t) r.2 (.arr r.1), r.2)
    | '{' :: t => match depth with
      | 0 => none
      | depth + 1 => match skipJsonSpace t with
        | '}' :: u => some (asAgent role ('{' :: t) u (.obj []), u)
        | u => (scanMembersA n depth u).map fun r => (asAgent role ('{' :: t) r.2 (.obj r.1), r.2)
    | t => scanLiteral t
/-- `scanElements`, likewise. -/
def scanElementsA : (role : AgentRole) → (fuel depth : Nat) → Str → Option (List Json × Str)
  | _, 0, _, _ => none
  | role, n + 1, depth, s => match scanValueA role n depth s with
    | none => none
    | some (j, t) => match skipJsonSpace t with
      | ',' :: t => (scanElementsA role n depth t).map fun r => (j :: r.1, r.2)
      | ']' :: t => some ([j], t)
      | _ => none
/-- `scanMembers`, likewise. -/
def scanMembersA : (fuel depth : Nat) → Str → Option (List (Str × Json) × Str)
  | 0, _, _ => none
  | n + 1, depth, s => match skipJsonSpace s with
    | '"' :: t => match scanString t with
      | none => none
      | some (raw, t) => match unescape raw, skipJsonSpace t with
        | some key, ':' :: t => match scanValueA (roleUnder key) n depth t with
          | none => none
          | some (j, t) => match skipJsonSpace t with
            | ',' :: t => (scanMembersA n depth t).map fun r => ((key, j) :: r.1, r.2)
            | '}' :: t => some ([(key, j)], t)
            | _ => none
        | _, _ => none
    | _ => none
end

/-- `scanJson`, likewise. -/
def scanJsonA (s : Str) : Option Json :=
  match scanValueA .other (2 * s.length + 1) maxNestingDepth s with
  | none => none
  | some (j, t) => if skipJsonSpace t = [] then some j else none

/-- `ReadInto` (json/reader.go:29-83) on a text with arrays or objects in place of agents: what `odd` of `readJsonText` is. -/
def readOddAgents (so : Sorter) (copy : Version → Version → Doc → Doc) (target : Version) (s : Str) : Res Doc :=
  match scanJsonA s with
  | none => .err
  | some j => readJsonInto so copy true target j

/-- `ReadInto` (json/reader.go:29-83) on any text. -/
def readJsonAny (so : Sorter) (copy : Version → Version → Doc → Doc) (float : Str → Bool) (isPtr : Bool) (target : Version) (s : Str) : Res Doc :=
  readJsonText so copy float (readOddAgents so copy target) isPtr target s

end Verif
