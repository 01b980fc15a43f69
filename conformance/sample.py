import sys
open(sys.argv[1], 'w').write('''import Verif
open Verif
def copies : Version → Version → Doc → Doc := fun _ _ d => d
def tv (n : String) (v : Version) : IO Unit := do
  let s ← IO.FS.readFile s!"/repo/examples/sample-docs/tv/{n}"
  match readTagValueInto copies true v s.toList with
  | .ok d =>
    match writeTagValue v insertionSorter d with
    | .ok t => IO.println s!"{n}: read; {d.packages.length} packages, {d.files.length} files; written the same: {decide (t = s.toList)}"
    | _ => IO.println s!"{n}: not written"
  | .err => IO.println s!"{n}: error"
  | .panic => IO.println s!"{n}: panic"
#eval tv "SPDXTagExample-v2.3.spdx" .v23
#eval tv "SPDXTagExample-v2.2.spdx" .v22
#eval tv "hello.spdx" .v22
#eval tv "hello-modified.spdx" .v22
def js (n : String) (v : Version) : IO Unit := do
  let s ← IO.FS.readFile s!"/repo/examples/sample-docs/json/{n}"
  match readJsonText insertionSorter copies (fun _ => true) (fun _ => .panic) true v s.toList with
  | .ok d => IO.println s!"{n}: read; {d.packages.length} packages, {d.files.length} files"
  | .err => IO.println s!"{n}: error"
  | .panic => IO.println s!"{n}: panic"
#eval js "SPDXJSONExample-v2.3.spdx.json" .v23
#eval js "SPDXJSONExample-v2.2.spdx.json" .v22
''')
