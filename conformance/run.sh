#!/bin/sh
# Runs the model on the test vectors of /repo.  Needs a built /verif/lean.
d=$(mktemp -d)
here=$(cd "$(dirname "$0")" && pwd)
for t in writer parser convert example rdf rdfunits sample units; do
  echo "== $t"
  (cd "$here" && python3 -B $t.py "$d/$t.lean")
  (cd "$here/../lean" && lake env lean "$d/$t.lean" 2>&1 | grep -v '^$' | grep -E 'DIFF|same|example|read|error|calls|expected' | grep -v warning)
done
echo "== names"
python3 -B "$here/names.py"
rm -r "$d"
