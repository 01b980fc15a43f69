# Running the model on the test vectors of /repo

The proofs are about the model; these scripts compare the model with what the repository's own tests say about the
code. They are tests, not part of any proof. `./run.sh` (after `lake build` in /verif/lean) takes about a minute.

* `writer.py`: the arguments and the expected text of the writer tests (`tagvalue/writer/save_*_test.go` of 2.1, 2.2 and
  2.3): 88 calls, no difference. One test per version is not translated.
* `parser.py`: the calls of `parsePair` in `tagvalue/reader/parse*_test.go`, whether an error is expected, and the
  assertions on the parser afterwards: 335 tests, 680 calls, 759 assertions. The differences it prints are not
  differences of the model:
  - `…IfAnnotationNotSet`, `…IfRelationshipNotSet` call an inner function of which the model includes the part of its
    caller that allocates the struct; `…InInvalidState` calls a function in a state in which it is never called.
  - `…MovesToSnippetAfter…`, `…AOPPointerChanges…` compare pointers, the script compares what they point to.
* `convert.py`: the documents of `convert/spdx_document_conversion_test.go`, all equal, as in the test up to the field
  `IsUnpackaged`, which JSON does not show.
* `example.py`: the JSON samples are read as the documents of `spdx/v2/v2_2/example` and `v2_3/example`, up to the
  order of relationships, as in the tests.
* `rdf.py`: the triples of the RDF sample (taken from the XML by the script) are read, as in `rdf/reader_test.go`.
* `rdfunits.py`: the calls of reader methods in the tests of `spdx/v2/v2_{2,3}/rdf/reader`, on the triples of the XML in the
  tests (taken from it by the script), and whether an error is expected: 304 calls. The two differences (one per version) are
  a test that replaces the triples inside the reader before the call, which the script does not do.
* `sample.py`: the sample documents. `SPDXTagExample-v2.3.spdx` is read and written again as the same text.
  `SPDXTagExample-v2.2.spdx` is an error: no test reads it, and the code does not accept the tag `SnippetSPDXID` after a
  package (spdx/v2/v2_2/tagvalue/reader/parse_package.go has no case for it).
* `units.py`: the smaller unit tests (`tagvalue/reader`, `idsearcher`, `utils`, `builder` with the directories of
  /repo/testdata, `spdxlib`, identifiers and agents in JSON): 89 checks, no difference. The digests are computed by
  the script and given to the model, which takes them as a parameter.
* `names.py`: the license list and the constants of the RDF reader, the tags that are read and written, and the keys of
  JSON are those of the model, as texts.
