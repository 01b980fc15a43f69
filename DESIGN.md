# A Lean 4 model of spdx/tools-golang

The code under study is in `/repo` (spdx/tools-golang at its pinned commit). Nothing is built or
run: the model is written by reading the Go text, and every definition cites the file and lines it
models. This file is the plan, the trusted base and the record of disagreements.

## Layout

* `lean/Verif/Model/*.lean` – the model. Executable total functions, one per Go function.
* `lean/Verif/Spec/*.lean` – small independent specifications used in theorem statements.
* `lean/Verif/Lemmas/*.lean` – helper lemmas, no property is stated there.
* `lean/Verif/Props/*.lean` – the property theorems (`C01_…`), each with an `example` showing that
  a concrete non-trivial case meets its hypotheses, and negation witnesses (`…_false`) where the
  code violates the English property.
* `properties.jsonl`, `MANIFEST.json`, `seeded/LOG.jsonl` – property list, status, mutation log.

## Modelling conventions

* **Strings** are `List Char` (`Str`). Go strings are byte strings; the model covers valid UTF-8.
  Go's byte-wise `<` on valid UTF-8 is code-point order, so `Str` is ordered lexicographically by
  code point. Byte lengths, where the code uses them, are UTF-8 lengths (`byteLen`). C71 proves, from a model of
  the tag-value reader and of the string functions on bytes (`Bytes`), that bytes and characters agree on UTF-8;
  C73 does the same for `idsearcher`, and C83 for JSON, on bytes of any kind.
* **Errors** are values: `Res α = ok a | err | panic`. Error messages are not modelled (only that
  an error is returned). `panic` is a nil dereference, failed type assertion or slice overrun; the
  model produces it wherever the Go code would, so "never panics" is a theorem, not an assumption.
* **Pointers.** Where the Go code keeps a pointer into a structure it is building, the model keeps
  an index into an explicit heap (packages, files, snippets) or into the list that owns the object
  (relationships, annotations, …). Aliasing (the same package appended twice) is thus visible.
* **nil slices** and empty slices are identified, except where the code tests for nil and in `EmptyLists`, the JSON
  writer with nil and empty slices told apart.
* **Maps** are association lists with distinct keys; iteration order is a parameter where it is
  observable.
* **Versions** 2.1, 2.2 and 2.3 of the tag-value reader and writer are textually parallel; the model
  is one definition with a version parameter, and the comments cite all three.

## Trusted base

* Lean 4.33.0's kernel. Axioms allowed: `propext`, `Classical.choice`, `Quot.sound`. No `sorry`,
  no `native_decide`, no `bv_decide`, no axioms of our own.
* The reading of the Go code. Nothing ties the model to the code mechanically; `conformance/` runs the model on the
  vectors of the repository's own tests and on its sample documents (tests, not proofs; see `conformance/README.md`).
* The Go standard library (`strings`, `sort`, `strconv`, `fmt`, `bufio.Scanner`) is modelled by the
  definitions in `Model/GoStr.lean` and friends according to its documentation.
* Not modelled: SHA1/SHA256/MD5 themselves (parameters), the file system beyond a tree with contents,
  memory exhaustion, error messages.

### Modelled code

| package | model | left out |
|---------|-------|----------|
| `tagvalue/reader`, `spdx/v2/v2_{1,2,3}/tagvalue/reader` | `TVRead`, `Bytes`, `TVParse`, `Tags`, `ReadInto`, `Streams` | error texts; bytes that are not UTF-8 after the division into fields |
| `tagvalue/writer`, `spdx/v2/v2_{1,2,3}/tagvalue/writer` | `TVWrite`, `Sharing` (slices, goroutines), `Streams` (failing `io.Writer`), `NilEntries`, `NilPrint` (up to a panic) | memory models weaker than sequential consistency |
| `spdx/v2/common` | `Identifier`, `Agents`, `Types` | |
| `spdx/v2/v2_{2,3}` document, package, relationship JSON methods; `json` | `Json`, `JsonText`, `JsonBytes`, `JsonDoc`, `ReadInto`, `NilEntries`, `EmptyLists`, `Reuse`, `OddAgents` | see below |
| `utils` | `Utils` | |
| `spdxlib` | `SpdxLib`, `NilEntries` | |
| `licensediff`, `reporter` | `LicenseDiff`, `TabWriter` (`text/tabwriter` with the flags used) | what the tab writer tries again after a failure (`ReportTo`) |
| `examples/5-report`, `examples/6-licensediff` | `Examples` | arguments, opening files, error texts |
| `examples/2-load-save`, `3-build`, `4-search`, `8-jsontotv`, `9-tvtojson`, `11-yamltotv`, `12-tvtoyaml` | `Programs` | error texts; directories and permissions, other programs that change the files |
| `examples/1-load`, `7-rdfloader`, `10-jsonloader`, `13-yamlloader` | `Loaders` | error texts; what `%#v` prints (a parameter) |
| `idsearcher` | `IdSearcher` (text), `SearchBytes` (bytes) | |
| `builder` | `Builder` | clock (a parameter) |
| `convert` | `ReadInto` (`limit`, dispatch), `Convert` (struct types, chain), `NilConvert` (nil entries), `Reflect` and `ReflectFormats` (pointers) | `go-struct-converter`: modelled by its documentation, open on empty structs; a parameter in C38, C47, C57 - C61 |
| `yaml` | `Yaml` | `sigs.k8s.io/yaml` turns YAML into JSON and JSON into YAML: a parameter `Yaml` |
| `spdx/v2/v2_{2,3}/rdf/reader`, `rdf` | `RdfTerms`, `RdfState`, `RdfLicense`, `Rdf`, `RdfInto` | the gordf parser: the model starts at its triples; the writer (none exists) |

### Simplifications of JSON

* `encoding/json` is modelled by `Model/Json` on parsed values, and by `Model/JsonText` on text: scanner, compact
  and indented printing. Text is a list of Unicode characters. `Model/JsonBytes` has scanning, unquoting and quoting on
  bytes of any kind, and C83 proves that a file is read as the text that it reads as; what becomes of bytes that are not
  UTF-8 in identifiers and agents, which the library keeps, is a parameter of `readJsonBytes`.
* The raw text that the hand-written `UnmarshalJSON` methods inspect is the compact rendering. It differs from the
  text as written only if an array or object stands in place of an agent (creator, annotator, supplier, originator);
  what such texts are read as is a parameter `odd` of `readJsonText`, and `Model/OddAgents` says what it is (C88).
* Which number literals fit a `float64` is a parameter `float` of `readJsonText`.
* Entries `null` in lists of pointers, which become nil pointers in Go, are rejected in `JsonDoc` and kept in
  `NilEntries` (C66); `NilConvert` converts such documents (C90).
* Nil and empty slices are identified, as are a missing field and a field with `omitempty` at its zero value. Only
  writing JSON tells nil and empty slices apart: `Model/EmptyLists` does (C86), the writer of `JsonDoc` has nil slices.
* When a key occurs twice, the later value of a slice replaces the earlier one; Go reuses the elements, as
  `Model/Reuse` has it (C87).
* `go-struct-converter` is a parameter `copy`, assumed total (`Convert` gives one, see C62). The spare room of a rune slice after conversion
  (`cap`) is a parameter.

## Plan per property

| id | model | proof |
|----|-------|-------|
| C01 | `Model/TVRead` line state machine incl. scanner; `Model/TVWrite` items | induction over items, splitting lemmas for `<text>` blocks |
| C02 | `Model/TVRead` | one-step lemma: such a line leaves the state unchanged; induction |
| C03 | `Model/TVRead`; `Spec` classifies lines | induction over lines with the state |
| C04 | reader ∘ writer on one field | false in general: witness; partial theorem under a decidable condition |
| C05 | `Model/TVParse` (heap, explicit panics), all versions | invariant: section ⇒ its pointer is set; induction over pairs |
| C06–C09 | same | invariants over the heap, induction over pairs |
| C10 | same | invariant on section; unknown tag lemma |
| C11 | same, `Spec` groups pairs into sections | false for empty package names / repeated SPDXID: witness; partial by simulation |
| C12 | `TVParse` ∘ `TVRead` ∘ `TVWrite` | field-by-field simulation; normal form = sorted document |
| C13 | `TVWrite` with an arbitrary correct sort | sorted permutations with distinct keys are equal |
| C14 | `TVWrite` returns output and the mutated document | permutation lemma |
| C15–C17 | `Model/Identifier` | case analysis on prefixes and trims |
| C18 | `Identifier`, `TVParse` extractors | splitting lemmas, exact language |
| C19, C20 | `Model/Agents` | trimming and splitting lemmas |
| C21 | `Model/Verification`, hash a parameter | sort of a permutation |
| C22 | `Model/Filesystem` `ShouldIgnore`, `Spec` glob meaning | case analysis |
| C23 | tree model of `filepath.Walk` | induction over trees |
| C24–C26 | `Model/SpdxLib` | list reasoning |
| C27, C28 | `Model/LicenseDiff` | association list reasoning; misclassification witness for empty licenses |
| C29 | `Model/LicenseDiff`, `Model/TabWriter` | counting lemmas, sort parameter; the layout of two-cell lines; induction on the layout for blanks |
| C30–C32 | `Model/IdSearcher` | splitting/filter lemmas |
| C33, C34 | `Model/Builder` over the file tree | induction; composition with C24, C25 |
| C35–C37 | `Model/JsonDoc` after generic decoding | list reasoning |
| C38 | `Model/ReadInto` | dispatch, simple |
| C39 | `Model/Convert` `limit` with rune/byte lengths | false for multi-byte text: witness; partial for ASCII |
| C40 | `Model/RdfLicense`, `Spec/RdfLicense` (license trees of a graph) | measure on nodes not being read; soundness and completeness by induction on calls and on descriptions |
| C41 | text of license trees; grammar of expressions of C31 | unambiguity of the grammar; induction over trees; witnesses of lost parentheses |
| C42, C43 | `Model/Rdf` over triples, heaps and a cache | invariant over the calls of the reader; witnesses of panics and duplicates |
| C44 | extractors of `TVParse` | splitting lemmas; `Atoi (Itoa n) = n` |
| C45 | `IdSearcher` over the file tree | composition of C22, C30–C33; sorted lists with exact membership |
| C46 | `Builder`, `IdSearcher`, `TVWrite`, `TVRead`, `TVParse` | built documents are representable; C12 |
| C47 | `Json`, `JsonDoc` | field-by-field round trip with a generic object codec |
| C48 | `TVParse`, `Spec/Meaning` | independent reading of the pairs by position; invariant over the fold |
| C49–C53 | `Model/Rdf`; what statements say: `Spec/RdfSays`, `RdfElements`, `RdfSnippets`, `RdfRead` | invariant on the contents of the elements read so far, over the calls of the reader; at the end nothing is being read; witnesses |
| C54 | `Model/Rdf`; `Spec/RdfLegal` | no reader method fails where the statements can be read (a logic of methods that do not fail, over the nodes being read); conversely, what the document leads to was read (C49–C53) and its statements say something |
| C55 | `TVParse`; `Spec/Sections` | the sections are read off the pairs from the end; a zipper of the sections read from the front, and an invariant of the parser state relating the heap of packages, files and snippets to it |
| C56 | `TVParse`, `ReadInto`; `Spec/LegalText` | each pair is accepted in a parser state iff it is legal there (`LegalStep`); the state tracks what the pairs before say (`LegalTrack`); induction over the pairs in both directions, with the identifiers still owed by open sections |
| C57 | `Json`, `JsonDoc`; `Spec/JsonSays` | each decoder of a value reads a tidy value as the specification says (`JReads`, an equivalence); objects by peeling off one field after the other; packages and relationships put together from the raw document |
| C58 | `JsonText` (scanner, printer); `Spec/JsonText` (RFC 8259) | scanner and grammar agree: induction over the fuel and over the derivation; printed values are well spelt; combined with C47 and C57 |
| C59 | `JsonText`, `JsonDoc`; `Spec/JsonLike`, `Spec/JsonSays` | each specification of a value is steady under reordering (`SteadyV`, `SteadyO`), then C57 in both directions; no decoder panics (`SafeCodec`) |
| C60 | `Yaml` | C47 for the value the library parses; C59 |
| C61 | `readTagValues`, `parseTagValues`, `readTagValueInto` | an inductive grammar of lines, equivalent to the line reader; the relations of C48 and C55 are functional, so C56 gives the equivalence |
| C62 | struct types of the three versions, copying by field names, `convert.Document` | documents as Go values; the copy computed struct by struct, then the chain |
| C63 | `bufio.Scanner` on pieces, readers that fail, writers that take a part | the scanner's lines are those of the whole text, by induction on the pieces; writers as state machines with the contract of `io.Writer` |
| C64 | the writer against the grammar and meaning of C56 and C61 | C12 and C61 combined; being the same document is an equivalence |
| C65 | programs that write and read in one format after another | C12, C58 and C60 in sequence, by induction on the list of formats; being portable is kept under reordering |
| C66 | `Model/NilEntries`: lists of options; JSON codecs, tag-value writer and validation on them | reading by C57 on the object without the lists of pointers and a lens for each list; writing is the plain writer on the document without nil, and panics if there is none |
| C67 | no new code; `Spec/Savable`: texts whose values survive | the rules of C61 give what each field of the loaded document is made of; from these the conditions of C12 follow field by field; then C12, C64 and C65 |
| C68 | no new code; `Spec/JsonSavable`: JSON objects whose documents survive | what C57 says each field is made of gives the conditions of C47; the rest of what JSON does not keep is never set by the reader; then C58 and C60 |
| C69 | no new code; `Spec/RdfExact` | the invariant of reading says that every file, package, relationship and annotation met is one that the document leads to (`Leads`); the converse by induction on `Leads` |
| C70 | no new code; `Spec/RdfOrder` | what the statements say about each element (C49–C53, C69) is compared for the two orders, field by field; `Legal` (C54) is shown not to depend on the order, by building an element from the reordered statements |
| C71 | `Bytes`: UTF-8, the functions of `strings` on bytes, the tag-value reader and the printing of a field on bytes | a character is found exactly where its bytes stand; the functions on bytes commute with encoding; the reader by simulation; the round trip by induction over fields and lines |
| C72 | `Sharing`: memory with arrays and slices, the tag-value writer as a program of single reads and writes, goroutines and schedules | the program refines `renderDocument`; every slice is only shuffled; a program depends on nothing but the cells it touches, so that goroutines with different cells do not disturb each other (invariant over the schedule) |
| C73 | `SearchBytes`: `idsearcher` on files of bytes | the relation between bytes and the text they read as is total and functional, and is kept by cutting at ASCII text, by splitting into lines, by trimming and by stripping; then C45 applies |
| C74 | `Builder` on two directories | an inventory (paths and digests in order) exists and is unique, and the document is a function of it; changes and additions are followed through the inventory |
| C75 | `Model/Examples` on two documents | sections as an inductive specification; composition of C25, C27, C28, C29 |
| C76 | `Model/Reflect`, `Model/ReflectFormats`: values behind pointers | induction on the depth; composition with C38, C39 |
| C77 | `Model/Programs`: the moments of a run on a file system with failures | invariants over the moments; the scanner on a text of an object with anything behind it; C63 and C65 for what is read and written |
| C78 | `Model/Convert`, `Model/ReadInto` and `Model/TVWrite`, composed in `Spec/Upgrade` | what can be represented in one version can be in another (field by field); the writer ignores empty verification codes; induction on the sequence of versions |
| C79 | `Model/Rdf`, `Model/JsonDoc` and `Model/JsonText`, composed; `Spec/RdfSavable` | from what the statements say (C49-C52) every field is such that JSON carries it; the JSON writer does not see the prefixes RDF leaves; then C58, C60 |
| C80 | `Model/Rdf`, `Model/TVWrite`, `Model/TVParse` and `Model/Reflect`, composed; `Spec/RdfTextable` | from what the statements say (C49-C53) every field is representable; elements with the same identifier are equal, so sorting commutes with leaving out the file names of ranges; then C12 |
| C81 | `Model/JsonText`, `Model/RdfInto` (`ReadInto` of RDF), `Model/JsonDoc`, the conversion, composed | what JSON keeps commutes with the conversion, field by field; then C58, C60, C62, C79, C80 |
| C82 | `Model/Programs` (building and searching), `Model/Loaders` (loading and showing) | cases of a run as in C77; induction over files and packages shown; composition of C12, C45, C46, C62, C74 |
| C83 | `Model/JsonBytes`: scanning, unquoting and quoting JSON on bytes | simulation of the scanner on bytes by the scanner on the repaired text, by induction over steps; strings through an automaton that cannot tell bytes beyond ASCII apart; unquoting by strong induction on the length |
| C84 | the models of C12, C21, C24–C29, C58, C60, C62, C75 | all tools look only at names, identifiers, checksums, licenses and relationships (`gist`); conversion, JSON and YAML keep these; for tag-value, invariance under permutation, by the specifications of the tools |
| C85 | the models of C47, C57, C58, C60 | every encoder gives an object without repeated keys (by structure); every encoder gives the same for a value and what is kept of it; then C57 (what an object says is unique) and C58 |
| C86 | `Model/EmptyLists`: the JSON writer with a mark for every list that Go writes without `omitempty` | a marked field is read like the field itself (round trip of codecs, C47); the fields replaced keep keys and order; then C58 |
| C87 | `Model/Reuse`: the decoders with slices that are used again; what is beyond the length of a slice is a parameter `Reuse` | decoders with and without reuse agree at zero values on values without repeated keys, by structure; a struct has its fields at zero until their only entry is met |
| C88 | `Model/OddAgents`: scanning that keeps the text of arrays and objects in place of agents; `Spec/OddAgents`: the grammar with two values | what is spelt is scanned, by induction over the grammar; without such agents the two values are the same |
| C89 | `Model/GoStr`, `lowerChar`, `upperChar`; `Spec/Words`: ends, pieces, dictionary order | by induction over the text; each operation is compared with a description that does not compute |
| C90 | `Model/NilConvert`: the Go values of documents with nil entries, copied as in `Model/Convert` | field by field as C62, with slices and maps of pointers copied pointer by pointer; documents without nil entries have the same Go value in both models |
| C91 | the conversion of `Model/NilConvert`, on all documents | when the Go value of each struct is zero, by its fields; then field by field as C90, with the empty parts removed |
| C92 | `Model/NilPrint`: the writer print by print, on documents with nil entries | what is printed begins the text of each function with the gaps filled, and a function that returns has printed all of it, by following the loops; for the part before the gap, section by section; for gaps inside files and packages, by uniqueness of sorted lists with distinct keys |
| C93 | `Model/Rdf`, `Model/SpdxLib`: reading a graph and validating the document | the names of the document are those of what the graph leads to (C69), less the files in packages (C43); ends of relationships are unique (C52) |
| C94 | `Model/Rdf`, `Model/SpdxLib`: reading a graph and looking for described packages | no type in the list of the reader is one of the two spellings, so nothing is said (C25, C52); described packages are listed twice (C43) |
| C95 | `Model/TVParse`, `Model/SpdxLib`: reading tag-value pairs and validating the document | the identifiers of the document are those of the sections (C11), and its relationships those of the lines (C48); references are read in one way |
| C96 | the same, and looking for described packages | by C25, C11 and C48 |
| C97 | `Model/JsonDoc`, `Model/SpdxLib`: reading a JSON object and validating the document | the document is what the object says (C57); what is completed from `documentDescribes` and `hasFiles` is found again by its text, which determines the ends; for texts by C58 and C60, for other versions by C84 |
| C98 | the same, and looking for described packages | by C25, C57 and the same argument |
| C99 | `Model/SpdxLib`: validating documents and looking for described packages before and after a change | from C24 and C25, which say what both functions answer |

## Disagreements between property and code

Each is a theorem about the model, on concrete inputs, that the unrestricted English property does not
hold. The restricted property, with the condition the witness shows to be needed, is what is proved.

* `C04_injection_false` – A description can declare a license: reading the written document gives a package that declares the license MIT, which the document that was written did not.
* `C04_plain_injection_false` – A package version can add a package.
* `C04_unreadable_false` – One field with `<text>` in it makes the whole document unreadable.
* `C11_repeated_id_false` – A second `SPDXID` in a file section lists the file a second time.
* `C11_unnamed_package_false` – After a package section with an empty name the next package section overwrites it: two sections, one object (listed twice, since both sections register it).
* `C12_code_of_unanalyzed_false` – The verification code of a package whose files were not analysed is lost.
* `C12_document_snippet_false` – Snippets kept in the document, as the JSON form keeps them, are lost.
* `C12_empty_creation_info_false` – Creation information that says nothing comes back as missing, and the result cannot be written again.
* `C12_files_analyzed_false` – The flag saying that the `FilesAnalyzed` field was present is not kept when the field is false: the writer prints the field in any case.
* `C12_package_annotation_false` – Annotations kept in a package are lost.
* `C12_supplier_kind_false` – A supplier of another kind is written, but what is written cannot be read.
* `C12_two_exclusions_false` – Two excluded files come back as one file whose name is both names.
* `C12_zero_offset_false` – A byte range that starts at zero is lost.
* `C13_equal_ids_false` – Distinctness is needed: with two packages of the same identifier the order shows.
* `C15_escapes_false` – The decoder does not undo JSON escapes: an identifier with a backslash (or a control character, or a quote) does not survive.
* `C17_special_false` – A special value other than NONE and NOASSERTION is encoded but not accepted back.
* `C19_noassertion_kind_false` – A supplier called NOASSERTION loses its kind.
* `C19_not_alike_false` – Suppliers and originators are not decoded alike: white space around the kind and after the name is removed from one and kept in the other.
* `C19_quote_false` – A quote in a name is not undone: the decoder does not read JSON escapes.
* `C21_boundary_false` – Without the length condition the code does not tell contents apart.
* `C23_text_order_false` – The order is that of the names, not of the texts: `/a/b` is listed before `/a.txt`, although the text `/a.txt` is smaller.
* `C24_none_rejected_false` – The names NONE and NOASSERTION, which the format allows, are rejected.
* `C24_other_document_false` – An element of another document is looked up in this one: a dangling reference is accepted, and a correct one rejected.
* `C24_package_file_false` – A file that belongs to a package is not known.
* `C25_repetition_false` – An element described twice is returned twice.
* `C25_unverified_false` – The comment in the code says the identifiers are verified to be packages of the document. They are not: an unknown element, and an element of another document, are returned.
* `C27_same_name_false` – Of several files of the same name in one package only the last is compared.
* `C28_empty_license_false` – The condition is needed: a file without concluded license that is only in the first package is reported as the same in both, and a file that is in both but has a license in one only is reported as missing in the other.
* `C29_forged_false` – A license that is a text with line ends and tabs can look like a row of its own.
* `C29_ties_false` – The report is not a function of the package: licenses with the same number of files may come in either order.
* `C30_repetition_false` – Repeated names are listed repeatedly.
* `C30_tab_false` – Only the space character separates: with tabs the whole expression is one name.
* `C31_other_operators_false` – Operators in lower case and operators between tabs, which the splitting into names or the tag's text allow, are not protected.
* `C32_comment_end_false` – The end of an HTML comment becomes part of the identifier; so does a space before a removed character.
* `C32_document_ref_false` – The colon of a reference into another document is lost.
* `C34_creator_type_false` – A creator type that is none of the three kinds is kept, although the comment says it becomes a person.
* `C34_namespace_false` – The namespace ends with the printed verification code structure, braces and brackets included, and so is not a URI; nor is it unique, as the configuration's comment promises: there is no random part.
* `C35_false` – If a relationship type has a hyphen, an entry of `documentDescribes` can get lost: a relationship of another element with another type has the same text.
* `C37_underscore_false` – A category with an underscore does not survive.
* `C38_json_two_keys_false` – The same disagreement for JSON, with two spellings of a key.
* `C38_two_versions_false` – With two versions stated, the first decides on the rules and the last is what the document carries.
* `C39_multibyte_false` – The bound of 300 used in error descriptions, on 152 letters of two bytes each: a panic, if the converted text has no spare room.
* `C41_empty_name_false` – The license list of the code contains the empty text (twice), so any address that ends in a slash or a hash is read as a license without a name instead of being rejected.
* `C41_nesting_false` – C41 as first stated is false: "one of A and B, and C" and "A, or B and C" have the same text, because the members of a set are joined without parentheses.
* `C41_operators_false` – A license, "this license or a later version" and "this license with an exception" are read as the same text: the operators are lost.
* `C42_two_roles_false` – C42: "reading never panics if all roots have classes" is false: a package that is used as a file is found in the cache and converted to a file (parse_file.go:22).
* `C42_untyped_root_false` – C42: "reading never panics" is false: the first class of each root is taken without checking that there is one (parser.go:113).
* `C43_listed_once_false` – C43: "every package of the graph is in the document exactly once" is false: the described package is there twice, once appended where it is read and once where it is described (parse_package.go:175, parse_spdx_document.go:69).
* `C43_read_once_false` – C43: "a file that two packages have is read as the graph describes it" is false: the file of the example has one checksum in the graph and two in the document, because it is read again from each package (parse_file.go:18-35, which skip only a node that is being read).
* `C44_bracket_exclusion_false` – An excluded file with a closing bracket in its name is cut short.
* `C44_locator_space_false` – A locator with a space cannot be read.
* `C44_two_exclusions_false` – Two excluded files are read as one.
* `C45_empty_identifier_false` – A tag without identifier gives an empty identifier, and with another one an expression without left side.
* `C45_root_pattern_false` – The patterns of the search are compared with names that begin with `./`: a pattern from the root, which the builder honours, has no effect.
* `C46_space_in_name_false` – A package whose name has a space is built and written, but the text cannot be read.
* `C46_trailing_space_false` – An identifier followed by a space and a character no identifier has keeps the space, and loses it when written and read.
* `C47_ampersand_false` – With HTML escaping, which is the default, a supplier with an ampersand is read back as another one.
* `C47_review_false` – Reviews are lost.
* `C49_identifier_false` – C49: "the identifier of the document is the name of its node without SPDXRef-, as that of other elements" is false (parse_spdx_document.go:23-24): the relationships of the document refer to DOCUMENT, and it is called SPDXRef-DOCUMENT.
* `C51_purpose_false` – C51: "the primary purpose of a package is read" is false: the URI that RDF uses for it is not recognized, and the purpose is dropped without an error (parse_package.go:221-231).
* `C52_annotation_subject_false` – C52: "an annotation says which element it is about" is false: it does not (parse_annotation.go), and the annotation of the package, which is read twice, is there twice.
* `C53_ranges_false` – C53: "a snippet has all the ranges that the graph gives it" is false: only the last one is kept (parse_snippet_info.go:137).
* `C54_empty_name_false` – Every license that is read has a name: false. The list has an empty entry, so a URI that ends in a slash is one.
* `C55_unnamed_false` – Without names the packages are not those of the sections: a package section with an empty name is merged with the next one.
* `C56_snippet_place_false` – "A snippet that names its file is read wherever it stands" is false: behind a package without files it is an error, and so `examples/sample-docs/tv/SPDXTagExample-v2.2.spdx`, where the snippet stands behind the last package, is not read.
* `C56_unnamed_false` – The order is not checked across sections of packages without names: the first section here gives no identifier, and yet the text is parsed.
* `C57_duplicate_false` – A key twice: the document is read, though an object that says two things says nothing definite. The last value counts, and for objects both are merged.
* `C57_escape_false` – Escapes are kept as they are in identifiers, suppliers and creators: two spellings of the same text are read as two identifiers.
* `C58_indent_false` – Indentation that is not blank is accepted by the writer, but what it writes cannot be read.
* `C59_agent_false` – An array or object in place of a supplier is read by its text, so that the order of its entries matters.
* `C59_twice_false` – Where a key occurs twice the order does matter: the last value counts.
* `C62_empty_false` – Without `Solid`: if the library treats a pointer to an empty struct as nil, an empty supplier is gone after converting there and back.
* `C63_hole_false` – : a line in the middle is lost, nil is returned, and what arrived is not the beginning of the text.
* `C63_report_unreported_false` – : the disk is full, most of the report is missing, and nil is returned.
* `C63_unreported_false` – : the disk is full, most of the text is missing, and nil is returned.
* `C65_document_snippets_false` – : there they belong to the document.
* `C65_snippets_false` – : there they belong to files, and files are written without them.
* `C66_crash_false` – Every document that the JSON reader returns can be written as tag-value text and validated without a crash: false. With `"packages": [null]` the reader returns a document with a nil package, and the writer and `ValidateDocument` dereference it.
* `C67_algorithm_false` – A colon in the algorithm of an external document moves to its digest.
* `C67_creation_false` – A text that says nothing about its creation is loaded but cannot be saved.
* `C67_empty_false` – A supplier without a name is lost; so are an empty verification code and one of which only the exclusion is given.
* `C67_lines_false` – A version of two lines becomes a version and a comment.
* `C67_nested_false` – `<text>` inside `<text>` is loaded, but what is saved cannot be loaded.
* `C67_snippet_false` – Ranges that begin with zero are lost, and a snippet that does not name its file makes the saved text unreadable.
* `C67_spaces_false` – Spaces inside `<text>` are lost.
* `C67_unanalyzed_false` – The verification code of a package whose files were not analyzed is lost, and so is the license information from its files.
* `C67_unnamed_false` – Packages, files and licenses without a name are loaded, but what is saved cannot be loaded.
* `C68_creator_false` – A creator without a name is loaded but cannot be saved; nor can an annotation without annotator.
* `C68_document_ref_false` – A relationship to a whole document is loaded but cannot be saved.
* `C68_escape_false` – An escape in an identifier is escaped once more by each save.
* `C68_flag_false` – Whether files-analyzed was present is not kept.
* `C68_no_id_false` – A document whose identifier is missing is loaded, but what is saved cannot be loaded.
* `C68_supplier_false` – A supplier named `NOASSERTION` loses its kind.
* `C68_twice_false` – An identifier with its prefix twice loses one.
* `C69_all_elements_false` – C69: "the packages and files of the graph are in the document" is false: those that nothing in the document refers to are dropped without an error.
* `C70_equal_false` – C70: "the documents are equal" is false: the members of a license set are printed in the order in which they come.
* `C70_once_false` – C70: without the condition that nothing is said twice, order matters: the last name is kept.
* `C70_ranges_false` – C70: nor are the ends of ranges in the same file: the file must come before the range.
* `C70_repeated_false` – C70: a graph with a repeated statement says the same, but may not be read.
* `C71_no_break_space_false` – The condition on white space is needed for white space of any script: a value that ends in a no-break space (the bytes C2 A0) loses it, and a value that ends in the byte A0 alone does not.
* `C72_overlap_false` – Slices that overlap in part are not safe: two packages with the files 2, 1 and 1, 0 in one array. Saving a document with the first package changes the files of the second.
* `C72_same_document_false` – Saving one document in two goroutines at the same time is not safe: there is a schedule after which a package is lost, although both goroutines have finished. (Two goroutines swap the same two packages.)
* `C74_renamed_false` – If a file is renamed, the document is another one under the same namespace: the namespace comes from the digests alone, not from the names.
* `C75_second_false` – A package that only the second document describes is not mentioned if the first document has a package with that identifier, whatever the differences are.
* `C75_stops_false` – The report stops at the first described package without analyzed files: the packages after it are not reported.
* `C76_write_boxed_false` – A pointer to a variable of interface type that holds a pointer to a document cannot be written.
* `C76_write_panics_false` – Writing a value of another type can panic instead of returning an error: a text of 152 letters `é`.
* `C77_cut_tagvalue_false` – "A tag-value file that a killed program leaves behind is not read as another document" is false: it is read as a document without the second package.
* `C77_emptied_false` – "If a document cannot be saved, the output file stays as it was" is false: a document without creation information is loaded but cannot be written, and the output file is empty after that.
* `C77_in_place_false` – "A document is not lost if a program that converts it in place is killed" is false: between emptying the file and writing there is nothing in it.
* `C77_reported_false` – "If a program says that it saved the document, it did" is false for tag-value: the disk is full, all but the first line is missing, and the program says that it saved the document.
* `C78_algorithm_false` – Not every document can be saved in an older version: a checksum of an algorithm that came with 2.3 is written into a text of version 2.2, and a reader of version 2.2 rejects the text.
* `C78_artifact_false` – If the copying library treats a pointer to an empty struct as nil, a project about which nothing is said is lost on the way to a newer version, though it is kept in its own.
* `C78_none_false` – A relationship with NONE is written into a text of version 2.1, and a reader of version 2.1 rejects the text.
* `C78_older_false` – On the way through an older version attribution texts are lost.
* `C79_analyzed_false` – C79: "whether the files of a package were analyzed is still known to be unsaid" is false: it becomes a statement that they were not.
* `C79_identifier_false` – C79: "the document keeps its identifier" is false: RDF leaves the prefix in it, JSON does not.
* `C79_snippets_false` – C79: "all of the document is saved" is false: the snippets of files, which JSON keeps in a list of the document, are not written (spdx/v2/v2_3/file.go: `json:"-"`).
* `C80_analyzed_false` – C80: "whether the files of a package were analyzed is still known to be unsaid" is false: without a statement in the graph the text says that they were not.
* `C80_identifier_false` – C80: "the saved relationships refer to the saved document" is false: the document keeps the prefix in its identifier and gets a second one in the text; the relationships refer to it with one prefix.
* `C80_once_false` – C80: "each element is saved once" is false: a package that is described and related is written twice, with its files each time.
* `C80_ranges_false` – C80: "the ranges of snippets keep their files" is false: the reader gives both ends of a range the file of the snippet, the writer does not write them.
* `C81_category_false` – C81: "a newer version can say all that an older one says" is false of the categories of external references: 2.1 keeps an underscore, the later versions make it a hyphen.
* `C81_older_false` – C81: "an older version keeps what both versions have a field for" is false: the purpose of a package is only in 2.3, but the dependencies of a file are in the documents of both versions, and 2.2 does not write them in JSON.
* `C82_left_out_false` – "The program that searches leaves out the directory LICENSES, as its settings say" is false.
* `C82_path_order_false` – "The files are shown in the order of their paths" is false with more than ten files: the files are saved in the order of their identifiers as texts, so that File10 comes after File1.
* `C82_reported_false` – "If the program says that it saved the document, it did" is false on a full disk.
* `C83_bom_false` – A byte order mark is not passed over.
* `C83_id_round_trip_false` – An identifier that is not UTF-8 does not survive being read and written: it is read as it stands, and written with U+FFFD.
* `C83_name_kept_false` – Not all strings are kept: the letter is replaced, and the three bytes of U+FFFD stand for its one.
* `C84_compare_false` – : the last file of a name counts, and files are saved in the order of their identifiers.
* `C84_report_false` – : packages are saved in the order of their identifiers, and the program stops at the first that was not analyzed.
* `C85_different_false` – : here they differ in a review and in the element that an annotation is about.
* `C86_again_false` – if a package of 2.2 has no verification code but a list of excluded files that is empty rather than nil: the text names an empty code, which is read as no code with a list that is nil.
* `C87_mixed_false` – If the files of a document are given twice, the file that is read has the name of the last one and the comment of the first one, although an array that is given once has nothing of the kind.
* `C88_blanks_false` – , if there are objects in place of agents: blanks within the object count.
* `C88_object_false` – Its text up to the first colon is the kind of the creator.
* `C90_snippet_false` – Converting a document to a newer version and back gives the document itself, whatever is missing from it: false for a missing snippet, whose entry in the map of the file is gone.
* `C91_file_false` – A file that is not empty is there after every conversion: false, see `C91_sample`.
* `C92_noticed_false` – The text that a panic leaves behind is not accepted as a document: false. What is read is a document without what should have followed the gap.
* `C93_complete_false` – C93: "a document read from RDF, all of whose relationships are between elements that are in it, is valid" is false: a relationship to a file that is in a package is taken for one to a missing element.
* `C93_none_false` – C93: "a relationship to NONE or NOASSERTION is valid" is false of documents read from RDF: it is read as a relationship to an element of that name, which is not in the document.
* `C94_found_false` – C94: "the packages that a document read from RDF says it describes are found" is false: it says so of its only package, in both ways that RDF has, and an error is reported. The package is listed twice (parse_spdx_document.go:62-69 and parse_package.go:172-176), and the type of the relationship is `describes` (parse_relationship.go:141-156), where the library looks for `DESCRIBES` (described_elements.go:41-45).
* `C95_contained_false` – C95: "a relationship between a package and a file in it is valid" is false: the identifiers of files in packages are not known to validation.
* `C95_external_false` – C95: "a reference to an element of another document is not looked for in this one" is false: it makes the document invalid, unless this document has an element of that name.
* `C96_packages_false` – C96: "the described packages are packages" is false: a document that describes `NONE` describes an element without identifier, and one that describes an element of another document or a file describes that.
* `C97_contained_false` – C97: "a relationship with a file that is given in a package is valid" is false.
* `C97_hidden_false` – C97: the condition on identifiers is needed: an entry of `hasFiles` that is the identifier of nothing is overlooked if a relationship has the same text, and the document is valid.
* `C97_identifier_false` – C97: "a document that describes its packages is valid" is false: if the identifier of the document is not `SPDXRef-DOCUMENT`, which the readers accept, the entries of `documentDescribes` make it invalid, and no described packages are found.
* `C97_none_false` – C97: "a relationship to nothing, or to an element of another document, is valid" is false.
* `C98_once_false` – C98: "a described package is listed once" is false: it is, if `documentDescribes` repeats an entry of `relationships`, but not if two entries of `relationships` say the same, or if an element of another document has the same identifier.
* `C98_version_false` – C98: "the described packages are the same in every version" is false: in 2.1 `documentDescribes` does not count.
* `C99_package_false` – C99: "what a valid document describes are packages" is false: it may be a file, or the document itself.
* `C99_second_package_false` – C99: "adding a package keeps the described packages" is false: the only package of a document counts as described, whatever the relationships say, and with a second one it does not.

## Axioms of each theorem

As printed by `#print axioms` for every theorem named in `MANIFEST.json`.

* **Classical.choice, Quot.sound, propext**:
  `C02_blank_and_comment_lines`, `C02_indentation`, `C03_line_errors`, `C03_text_errors`,
  `C04_one_pair_per_field`, `C04_representable_is_safe`, `C04_plain_field_iff`, `C04_text_field_iff`,
  `C05_parse_never_panics`, `C05_read_and_parse_never_panics`, `C05_no_document_iff_empty`,
  `C06_identifiers_present`, `C07_checksum_algorithms`, `C07_unknown_algorithm_rejected`, `C08_agent_kinds`,
  `C09_relationship_ends`, `C10_unknown_tag_rejected`, `C11_objects_follow_sections`, `C12_write_then_read`,
  `C12_write_is_stable`, `C17_decoding`, `C17_round_trip`, `C18_docElement_extract`,
  `C18_docElement_round_trip`, `C22_ignored_iff`, `C22_monotone`, `C23_listing`, `C23_no_repetition`,
  `C24_valid_iff`, `C24_order`, `C25_described`, `C25_no_repetition`, `C27_pairs`, `C28_exactly_one`,
  `C28_presence`, `C29_report`, `C29_printed`, `C29_ink`, `C31_unambiguous`, `C31_only_meaning`,
  `C32_characters`, `C33_package`, `C33_distinct`, `C33_error`, `C34_valid`, `C35_load`, `C35_hasFiles`,
  `C36_default`, `C37_load`, `C37_round_trip`, `C37_written`, `C38_never_panics`, `C38_version`, `C38_json`,
  `C40_reading_ends`, `C40_license_ends`, `C40_license`, `C40_unique`, `C40_cycles`, `C41_meaning`,
  `C41_distinct`, `C41_graph`, `C42_no_panic`, `C42_read`, `C43_files`, `C43_packages`, `C43_package_files`,
  `C43_described_twice`, `C44_byte_range`, `C44_line_range`, `C44_relationship`, `C44_number`, `C45_licenses`,
  `C45_error`, `C45_valid`, `C46_built`, `C46_ids`, `C47_round_trip`, `C47_unchanged`, `C47_spellings`,
  `C48_document`, `C49_one_document`, `C49_document`, `C50_files`, `C50_one_node`, `C50_same_file`,
  `C51_packages`, `C51_one_node`, `C51_same_package`, `C52_relationships`, `C52_annotations`,
  `C52_all_relationships`, `C52_all_annotations`, `C52_dependencies`, `C52_described_not_found`,
  `C52_described_never_found`, `C53_snippets`, `C53_all_snippets`, `C53_one_snippet`, `C54_accepted`,
  `C54_only_legal`, `C54_read`, `C55_sections`, `C55_complete`, `C56_legal`, `C56_text`, `C56_unknown_tag`,
  `C56_snippets_follow_files`, `C56_sample`, `C57_document`, `C57_unique`, `C57_read`, `C57_same_version`,
  `C57_sample`, `C58_grammar`, `C58_unambiguous`, `C58_only_json`, `C58_layout`, `C58_says`, `C58_objects`,
  `C58_written`, `C58_round_trip`, `C58_unchanged`, `C58_sample`, `C59_order`, `C59_text`, `C59_sample`,
  `C60_says`, `C60_same_as_json`, `C60_round_trip`, `C60_sample`, `C61_pairs`, `C61_unambiguous`, `C61_one`,
  `C61_document`, `C61_text`, `C61_sample`, `C62_converted`, `C62_there_and_back`, `C62_total`,
  `C62_read_tagvalue`, `C62_read_json`, `C62_sample`, `C64_text_says`, `C64_same_text_iff`, `C65_tagvalue`,
  `C65_tagvalue_to_json`, `C65_pass_along`, `C66_read`, `C66_plain`, `C66_read_then_write`, `C66_safe`,
  `C66_round_trip`, `C67_representable`, `C67_load_save`, `C67_saved_again`, `C67_says_the_same`,
  `C67_read_write`, `C67_sample`, `C68_carried`, `C68_load_save`, `C68_yaml`, `C68_sample`, `C69_exact`,
  `C69_nothing_else`, `C69_no_other_package`, `C69_sample`, `C70_same`, `C70_loaded`, `C70_read`, `C70_error`,
  `C70_sample`, `C71_read`, `C71_text_stays_text`, `C71_write`, `C71_round_trip`, `C71_encoding`,
  `C71_search`, `C71_trim`, `C71_order`, `C71_decode_first`, `C71_decode_last`, `C71_round_trip_sample`,
  `C71_no_break_space_false`, `C72_parallel_text`, `C72_parallel_finish`, `C72_parallel_kept`,
  `C72_parallel_sample`, `C72_same_document_false`, `C72_overlap_false`, `C73_reads`, `C73_search`,
  `C73_found`, `C73_disk`, `C73_document`, `C73_licenses`, `C74_document`, `C74_error`, `C74_same`,
  `C74_change`, `C74_add`, `C74_namespace`, `C74_licenses_same`, `C75_diff`, `C75_diff_error`,
  `C75_diff_order`, `C75_section_unique`, `C75_sum`, `C75_presence`, `C75_report`, `C75_report_all`,
  `C77_json_cut`, `C77_json_never_wrong`, `C77_chain`, `C77_sample`, `C78_saved_as`, `C78_text`,
  `C78_upgrade`, `C78_way`, `C78_sample`, `C79_json`, `C79_yaml`, `C80_text`, `C80_one_text`, `C81_json`,
  `C81_yaml`, `C81_rdf_json`, `C81_rdf_yaml`, `C81_rdf_text`, `C81_sample`, `C82_nothing_else`, `C82_shows`,
  `C82_shows_none`, `C82_build_then_load`, `C82_search_then_load`, `C82_unsearched`, `C82_attributes_json`,
  `C82_attributes_yaml`, `C82_attributes_rdf`, `C82_ends`, `C82_sample`, `C83_repair`, `C83_scan`,
  `C83_string`, `C83_read`, `C83_read_text`, `C83_not_json`, `C83_never_panics`, `C83_first_byte`,
  `C83_round_trip`, `C83_string_round_trip`, `C83_string_same`, `C83_writes_text`, `C83_write_text`,
  `C83_id_written`, `C83_id_refused`, `C83_open`, `C84_version`, `C84_read_tagvalue`, `C84_read_json`,
  `C84_json`, `C84_yaml`, `C84_tagvalue`, `C84_tagvalue_to_json`, `C84_pass_along`, `C84_rdf_json`,
  `C84_rdf_yaml`, `C84_rdf_text`, `C85_legal`, `C85_says`, `C85_stable_json`, `C85_stable_yaml`,
  `C85_same_text`, `C85_whole`, `C85_sample`, `C86_read`, `C86_alike`, `C86_document`, `C86_again_false`,
  `C87_text`, `C87_says`, `C87_round_trip`, `C87_sample`, `C87_mixed_false`, `C87_length`, `C88_seen`,
  `C88_read`, `C88_says`, `C88_blanks_false`, `C89_space`, `C89_trim_space`, `C89_order`, `C89_digits`,
  `C89_lower`, `C89_upper`, `C90_converted`, `C90_total`, `C90_plain`, `C90_missing`, `C90_there_and_back`,
  `C90_read_json`, `C90_sample`, `C91_next`, `C91_far`, `C91_faithful`, `C91_documents`, `C92_same`,
  `C92_prefix`, `C92_before`, `C92_in_order`, `C92_in_order_sample`, `C93_valid`, `C93_invalid`,
  `C93_packaged_file`, `C93_same_answer`, `C94_nothing_said`, `C94_described`, `C94_never_found`, `C95_valid`,
  `C95_invalid`, `C95_other_version`, `C96_described`, `C96_single`, `C95_other_version`, `C97_valid`,
  `C97_invalid`, `C97_json_text`, `C97_yaml_text`, `C97_other_version`, `C97_text_sample`,
  `C97_other_identifier`, `C97_sample`, `C98_described`, `C98_single`, `C97_json_text`, `C97_yaml_text`,
  `C97_other_version`, `C97_text_sample`, `C97_sample`, `C99_in_document`, `C99_grow`, `C99_merge`,
  `C99_relate`, `C99_remove_package`, `C99_remove_file`, `C99_merge_described`
* **Quot.sound, propext**:
  `C01_fields_round_trip`, `C10_sections_do_not_reopen`, `C13_output_independent_of_order`,
  `C14_only_reorders`, `C15_elementId_round_trip`, `C15_elementId_encoding`, `C15_elementId_decoding`,
  `C16_documentId_round_trip`, `C16_documentId_encoding`, `C16_documentId_decoding`, `C18_element_extract`,
  `C18_element_round_trip`, `C19_supplier_round_trip`, `C19_originator_round_trip`, `C19_supplier_decoding`,
  `C19_originator_decoding`, `C20_creator_round_trip`, `C20_annotator_round_trip`, `C20_decoding`,
  `C20_no_colon`, `C21_formula`, `C21_nil_file`, `C21_order`, `C21_only_digests`, `C21_excluded_file`,
  `C21_code_determines_digests`, `C23_error`, `C23_root_file`, `C24_nil`, `C26_filter`, `C27_distinct`,
  `C28_groups`, `C28_order`, `C29_ties_false`, `C29_forged_false`, `C30_individual`, `C30_no_breaks`,
  `C31_conjunction`, `C31_element`, `C32_search`, `C34_error`, `C35_again`, `C38_dispatch`, `C39_limit`,
  `C39_ascii`, `C43_package_id`, `C43_file_id`, `C44_checksum`, `C44_external_document_ref`,
  `C44_verification_code`, `C44_external_ref`, `C44_supplier`, `C44_originator`, `C45_meaning`,
  `C54_properties`, `C54_classes`, `C54_terms_sample`, `C54_licenses`, `C57_keys`, `C57_duplicate_false`,
  `C57_escape_false`, `C58_indent_false`, `C59_never_panics`, `C59_twice_false`, `C59_agent_false`,
  `C60_never_panics`, `C63_pieces`, `C63_reader_fails`, `C63_sample`, `C63_report`, `C63_report_sample`,
  `C65_sample`, `C66_json_safe`, `C66_relationships`, `C66_write`, `C66_write_plain`, `C66_whole`,
  `C66_validate`, `C67_plain_text`, `C67_spaces_false`, `C67_lines_false`, `C67_nested_false`,
  `C67_unnamed_false`, `C67_empty_false`, `C67_algorithm_false`, `C67_snippet_false`, `C67_creation_false`,
  `C67_unanalyzed_false`, `C68_saved_again`, `C68_flagged`, `C68_no_id_false`, `C68_escape_false`,
  `C68_twice_false`, `C68_document_ref_false`, `C68_supplier_false`, `C68_creator_false`, `C68_flag_false`,
  `C71_nothing_invented`, `C71_field_written`, `C71_split`, `C72_text`, `C72_others_kept`, `C72_history`,
  `C72_history_sample`, `C73_sample`, `C74_renamed_false`, `C75_second_false`, `C75_stops_false`,
  `C76_convert`, `C76_nil`, `C76_deep`, `C76_interface`, `C76_read`, `C76_read_deep`, `C76_write_other`,
  `C76_read_json`, `C76_read_yaml`, `C76_read_rdf`, `C76_formats_deep`, `C76_formats_interface`,
  `C76_formats_sample`, `C77_usage`, `C77_nothing_else`, `C77_unread`, `C77_output`, `C77_works`,
  `C77_any_beginning`, `C77_saved`, `C77_sample_full`, `C77_in_place_false`, `C77_reported_false`,
  `C77_cut_tagvalue_false`, `C77_emptied_false`, `C78_algorithm_false`, `C78_none_false`,
  `C78_artifact_false`, `C78_older_false`, `C79_elements`, `C79_sample`, `C80_sample`, `C80_identifier_false`,
  `C80_once_false`, `C80_analyzed_false`, `C81_newer`, `C81_rdf_sample`, `C81_category_false`,
  `C81_older_false`, `C82_usage`, `C82_unbuilt`, `C82_output`, `C82_status_rdf`, `C82_sample_json`,
  `C82_path_order_false`, `C82_left_out_false`, `C82_reported_false`, `C83_name_kept_false`, `C83_bom_false`,
  `C84_sample`, `C84_rdf_sample`, `C84_report_false`, `C84_compare_false`, `C85_kept`, `C85_different_false`,
  `C86_nil`, `C86_sample`, `C87_no_panic`, `C87_packages_sample`, `C87_length_sample`, `C88_agent`,
  `C88_no_panic`, `C88_sample`, `C88_object_false`, `C89_trim`, `C89_cut`, `C89_uncut`, `C89_ends`,
  `C89_split`, `C89_length`, `C89_number`, `C89_reads_number`, `C90_snippet_false`, `C91_kept`, `C91_solid`,
  `C91_sample`, `C91_file_false`, `C92_sample`, `C92_noticed_false`, `C93_packaged_sample`, `C94_sample`,
  `C94_described_sample`, `C94_found_false`, `C95_text_sample`, `C95_sample`, `C95_contained_false`,
  `C95_external_false`, `C95_text_sample`, `C95_sample`, `C96_packages_false`, `C97_identifier_false`,
  `C97_contained_false`, `C97_none_false`, `C97_hidden_false`, `C98_version_false`, `C98_once_false`,
  `C99_sample`, `C99_second_package_false`, `C99_package_false`
* **none**:
  `C22_no_patterns`, `C25_single`, `C29_not_analyzed`, `C71_read_sample`, `C71_latin1_sample`, `C92_exist`
* **propext**:
  `C12_representable_is_written`, `C14_fails_iff_no_creation_info`, `C17_not_encodable`,
  `C18_special_round_trip`, `C19_not_encodable`, `C20_no_name`, `C26_succeeds`, `C26_pure`, `C31_license`,
  `C32_all_lines`, `C38_pointer`, `C41_list_names`, `C54_relationships`, `C54_license_list`,
  `C54_licenses_sample`, `C54_empty_name_false`, `C55_sample`, `C55_unnamed_false`, `C56_unnamed_false`,
  `C56_snippet_place_false`, `C62_empty_false`, `C63_json_yaml_writer`, `C63_tagvalue_writer`,
  `C69_all_elements_false`, `C70_equal_false`, `C70_ranges_false`, `C70_once_false`, `C70_repeated_false`,
  `C71_no_panic`, `C76_not_pointer`, `C76_write`, `C76_write_panics_false`, `C76_write_boxed_false`,
  `C76_formats_not_pointer`, `C76_write_formats`, `C76_write_nothing`, `C79_snippets_false`,
  `C79_identifier_false`, `C79_analyzed_false`, `C80_ranges_false`, `C82_works`, `C82_ends_rdf`,
  `C83_id_kept`, `C83_sample`, `C83_id_round_trip_false`, `C89_join`, `C89_case`, `C89_sample`, `C93_sample`,
  `C93_complete_false`, `C93_none_false`
