{"id": "C01", "title": "Tag-value line format round-trips", "statement": "If a list of (tag, value) pairs is written one per line as 'tag: value', with a value that contains a line break wrapped in <text>...</text>, then the tag-value line reader returns exactly that list, in order, with no error, provided tags and values are free of the format's own delimiters in the places where they are significant.", "quantifier": "every finite list of pairs, every tag and value string satisfying the stated delimiter conditions, any number of embedded line breaks", "why_tests_cant": "strings and list lengths are unbounded; the failure cases are specific substrings in specific positions (a trailing space, an embedded </text>, a leading #)", "anchors": ["tagvalue/reader/reader.go:ReadTagValues", "spdx/v2/v2_3/tagvalue/writer/save_document.go:textify"]}
{"id": "C02", "title": "Comments, blank lines and indentation never change what is read", "statement": "Inserting blank lines, whitespace-only lines or '#' comment lines between tag-value lines, or indenting a tag line, changes neither the pairs read nor whether an error is reported.", "quantifier": "every input text, every insertion point outside a <text> block, every comment body", "why_tests_cant": "all positions of insertion in all documents cannot be enumerated", "anchors": ["tagvalue/reader/reader.go:readNextLine", "tagvalue/reader/reader.go:readNextLineFromReady"]}
{"id": "C03", "title": "The tag-value line reader reports an error exactly for malformed text", "statement": "Reading fails exactly when some line is 64 KiB or longer, when some line outside a <text> block is neither blank nor a comment and has no colon, or when a <text> block is still open at the end of input. It never drops or merges an error.", "quantifier": "every sequence of lines", "why_tests_cant": "the state at each line depends on the whole prefix of the input", "anchors": ["tagvalue/reader/reader.go:ReadTagValues", "tagvalue/reader/reader.go:finalize"]}
{"id": "C04", "title": "Written fields stay apart, exactly when their values are safe", "statement": "Reading a written document yields exactly one pair per printed field, with that field's tag and value, whenever every printed value is safe: a plain value is one line without surrounding white space and without '<text>'; a free text with line breaks has no '</text>' and no carriage return before a line break. The condition is exact: a single printed field reads back as itself if and only if its value is safe. Values that are not safe can inject fields, and the writer does not prevent it.", "quantifier": "every document of any version whose printed values are safe; for the converse every tag and every string", "why_tests_cant": "an adversarial value is one in infinitely many strings", "anchors": ["spdx/v2/v2_3/tagvalue/writer/save_document.go:textify", "spdx/v2/v2_3/tagvalue/writer/save_package.go", "tagvalue/reader/reader.go"]}
{"id": "C05", "title": "Parsing tag-value pairs never panics", "statement": "For every list of tag-value pairs, in any order and with any contents, the 2.1, 2.2 and 2.3 parsers return a document or an error; no nil pointer is dereferenced.", "quantifier": "every finite list of (tag, value) pairs and each of the three supported versions", "why_tests_cant": "the parser keeps ten pointers to partially built objects; every order of tags is a history", "anchors": ["spdx/v2/v2_3/tagvalue/reader/parser.go:ParseTagValues", "spdx/v2/v2_2/tagvalue/reader", "spdx/v2/v2_1/tagvalue/reader"]}
{"id": "C06", "title": "Every package, file and snippet in a parsed document has an identifier", "statement": "When parsing tag-value succeeds, every package and every file in the resulting document has a non-empty SPDX identifier that contains no colon, and every snippet is stored under its own non-empty identifier.", "quantifier": "every list of pairs that parses without error", "why_tests_cant": "depends on the order in which sections open and close along the whole history", "anchors": ["spdx/v2/v2_3/tagvalue/reader/parse_package.go", "spdx/v2/v2_3/tagvalue/reader/parse_file.go", "spdx/v2/v2_3/tagvalue/reader/util.go:extractElementID"]}
{"id": "C07", "title": "Parsed checksums use only the algorithms of the document's version", "statement": "When parsing succeeds, every checksum of every package and file names an algorithm on the list of that SPDX version; a package or file checksum with any other algorithm makes parsing fail.", "quantifier": "every list of pairs and each version", "why_tests_cant": "the algorithm name is an arbitrary string", "anchors": ["spdx/v2/v2_3/tagvalue/reader/parse_package.go", "spdx/v2/v2_3/tagvalue/reader/parse_file.go", "spdx/v2/common/checksum.go"]}
{"id": "C08", "title": "Parsed agents are of a known kind", "statement": "When parsing succeeds, every creator, annotator and reviewer is a Person, Organization or Tool, and every package supplier or originator is NOASSERTION or a Person or Organization.", "quantifier": "every list of pairs that parses without error", "why_tests_cant": "agent strings are arbitrary and occur in any section", "anchors": ["spdx/v2/v2_3/tagvalue/reader/parse_creation_info.go", "spdx/v2/v2_3/tagvalue/reader/parse_annotation.go", "spdx/v2/v2_3/tagvalue/reader/parse_review.go", "spdx/v2/v2_3/tagvalue/reader/parse_package.go"]}
{"id": "C09", "title": "Parsed relationships have well-formed ends", "statement": "When parsing succeeds, the left end of every relationship is an element identifier (optionally of an external document); the right end is one too or, from version 2.2 on, is NONE or NOASSERTION. No identifier part is empty where it is required and none contains a colon.", "quantifier": "every list of pairs that parses without error", "why_tests_cant": "the reference text is an arbitrary string with several colon and prefix cases", "anchors": ["spdx/v2/v2_3/tagvalue/reader/parse_relationship.go", "spdx/v2/v2_3/tagvalue/reader/util.go:extractDocElementID", "spdx/v2/v2_3/tagvalue/reader/util.go:extractDocElementSpecial"]}
{"id": "C10", "title": "Sections cannot reopen after Other Licensing or Review", "statement": "In a document that parses, no package, file or snippet section starts after an other-licensing or review section, and no tag unknown to the version is accepted anywhere: an unknown tag makes the parse fail whatever surrounds it.", "quantifier": "every list of pairs, every prefix and suffix", "why_tests_cant": "it is a statement about all histories of the section state machine", "anchors": ["spdx/v2/v2_3/tagvalue/reader/parser.go:parsePair", "spdx/v2/v2_3/tagvalue/reader/parse_other_license.go", "spdx/v2/v2_3/tagvalue/reader/parse_review.go"]}
{"id": "C11", "title": "Files belong to the package whose section they appear in", "statement": "In a text whose package sections all have a name and in which no section repeats its SPDXID, a file section that precedes every package section becomes an unpackaged file of the parsed document, and any other file section becomes a file of the nearest preceding package; packages and files keep the order of the text, and each section yields exactly one object with its own name and identifier.", "quantifier": "every list of pairs that parses without error", "why_tests_cant": "attribution depends on the whole prefix; the parser tracks it with mutable pointers", "anchors": ["spdx/v2/v2_3/tagvalue/reader/parse_file.go", "spdx/v2/v2_3/tagvalue/reader/parse_package.go"]}
{"id": "C12", "title": "Write then read returns the same document", "statement": "Saving a document as tag-value and loading the result returns a document with the same content, in the documented order of packages, files and references, for every document whose fields are representable in the format; saving that document again gives the same text.", "quantifier": "every document meeting an explicit representability predicate, any number of packages, files, snippets, relationships, annotations and reviews", "why_tests_cant": "documents are unbounded trees of unbounded strings", "anchors": ["spdx/v2/v2_3/tagvalue/writer/save_document.go:RenderDocument", "spdx/v2/v2_3/tagvalue/reader/parser.go:ParseTagValues"]}
{"id": "C13", "title": "Written tag-value does not depend on the order of packages, files or references", "statement": "Two documents that differ only in the order of their packages, of their files, of each package's files, or of their external document references produce byte-identical tag-value output when identifiers are distinct.", "quantifier": "every document and every permutation of those lists", "why_tests_cant": "there are n! permutations and the sort used is not stable", "anchors": ["spdx/v2/v2_3/tagvalue/writer/save_document.go:RenderDocument", "spdx/v2/v2_3/tagvalue/writer/save_package.go:renderPackage"]}
{"id": "C14", "title": "Writing tag-value loses no document and fails only without creation info", "statement": "Writing fails exactly when the document has no creation info; otherwise it produces output. Writing changes the caller's document at most by reordering packages, files and external references, never by changing an element.", "quantifier": "every document", "why_tests_cant": "must hold for every combination of absent and present fields", "anchors": ["spdx/v2/v2_3/tagvalue/writer/save_document.go:RenderDocument"]}
{"id": "C15", "title": "Element identifiers round-trip through JSON", "statement": "Encoding an element identifier to JSON text and decoding it returns the identifier, and decoding accepts exactly the quoted strings that start with SPDXRef- followed by at least one character; encoding adds the prefix once and only once.", "quantifier": "every identifier string", "why_tests_cant": "identifier strings are unbounded, and values that already carry a prefix or quotes are the corner cases", "anchors": ["spdx/v2/common/identifier.go:ElementID.MarshalJSON", "spdx/v2/common/identifier.go:ElementID.UnmarshalJSON"]}
{"id": "C16", "title": "Document identifiers round-trip through JSON", "statement": "The same as for element identifiers, with prefix DocumentRef-.", "quantifier": "every identifier string", "why_tests_cant": "identifier strings are unbounded", "anchors": ["spdx/v2/common/identifier.go:DocumentID.MarshalJSON", "spdx/v2/common/identifier.go:DocumentID.UnmarshalJSON"]}
{"id": "C17", "title": "Document-element references round-trip through JSON", "statement": "Encoding a reference (special value, element, or element of another document) to JSON and decoding it returns the same reference; a reference with neither special value nor element cannot be encoded; decoding rejects text that has neither a special value nor the required prefixes.", "quantifier": "every reference value and every text", "why_tests_cant": "three-part sum of unbounded strings with separator characters", "anchors": ["spdx/v2/common/identifier.go:DocElementID.MarshalJSON", "spdx/v2/common/identifier.go:DocElementID.UnmarshalJSON"]}
{"id": "C18", "title": "References written to tag-value are read back", "statement": "Rendering an element or document-element reference as tag-value text and extracting it again returns the reference; extraction accepts only texts of the form SPDXRef-x or DocumentRef-d:SPDXRef-x with non-empty, colon-free x and d.", "quantifier": "every reference value and every text", "why_tests_cant": "unbounded strings; the exact accepted language is the claim", "anchors": ["spdx/v2/common/identifier.go:RenderElementID", "spdx/v2/common/identifier.go:RenderDocElementID", "spdx/v2/v2_3/tagvalue/reader/util.go"]}
{"id": "C19", "title": "Package suppliers and originators round-trip through JSON", "statement": "Encoding a supplier or originator to JSON and decoding returns the same value for NOASSERTION and for every typed name without significant surrounding whitespace; an invalid one cannot be encoded.", "quantifier": "every supplier and originator value", "why_tests_cant": "names are arbitrary strings with colons, quotes and spaces", "anchors": ["spdx/v2/common/package.go:Supplier", "spdx/v2/common/package.go:Originator"]}
{"id": "C20", "title": "Creators and annotators round-trip through JSON", "statement": "Encoding a creator or annotator to JSON and decoding returns the same value for every non-empty name without surrounding whitespace; decoding text without a colon fails.", "quantifier": "every creator and annotator value", "why_tests_cant": "names are arbitrary strings with colons, quotes and spaces", "anchors": ["spdx/v2/common/creation_info.go:Creator", "spdx/v2/common/annotation.go:Annotator"]}
{"id": "C21", "title": "The package verification code depends only on the set of file digests", "statement": "The verification code of a package is unchanged by reordering its files or by changing anything of a file other than its SHA1 digest; the excluded file has no influence; a missing (nil) file is an error.", "quantifier": "every list of files, every permutation, every excluded name", "why_tests_cant": "n! permutations, arbitrary lists", "anchors": ["utils/verification.go:GetVerificationCode"]}
{"id": "C22", "title": "Ignore patterns match exactly the documented paths", "statement": "A path is ignored exactly when some pattern matches it: the pattern is the path itself; or, ending with a slash, a prefix of it (a directory and everything below); '**/name' matches a file of that name in every directory; '**/dirs/name' a file of that name below directories whose path contains '/dirs/'; '**/dirs/' everything below such directories; the empty pattern matches everything. Adding patterns never un-ignores a path.", "quantifier": "every path and every list of patterns", "why_tests_cant": "paths and patterns are unbounded strings", "anchors": ["utils/filesystem.go:ShouldIgnore"]}
{"id": "C23", "title": "Directory listing returns exactly the non-ignored regular files, sorted", "statement": "Listing a directory returns, without repetition and ordered name by name from the root down, the path below the root of every entry that is neither a directory, a symbolic link nor ignored. It fails exactly if something in the tree cannot be read.", "quantifier": "every directory tree and every list of patterns", "why_tests_cant": "trees of any shape and depth", "anchors": ["utils/filesystem.go:GetAllFilePaths"]}
{"id": "C24", "title": "Document validation accepts exactly the documents without dangling references", "statement": "Validation succeeds exactly when the element identifier of every relationship end is DOCUMENT, that of one of the document's packages or that of one of the document's (unpackaged) files, and otherwise returns an error; the order of packages, files and relationships is irrelevant.", "quantifier": "every document, any number of packages, files and relationships", "why_tests_cant": "a single dangling end anywhere must be found; quantifies over all relationship lists", "anchors": ["spdxlib/documents.go:ValidateDocument"]}
{"id": "C25", "title": "Described packages are found completely and in order", "statement": "For a document with two or more packages the described-package query returns, sorted, exactly the element identifiers of what the relationships say the document DESCRIBES or is DESCRIBED_BY (without repetition if no two relationships say the same), and fails if there is none; for a single package it returns that package; for none it reports an error.", "quantifier": "every document", "why_tests_cant": "quantifies over all relationship lists in both directions", "anchors": ["spdxlib/described_elements.go:GetDescribedPackageIDs"]}
{"id": "C26", "title": "Relationship filtering preserves order and rejects on error", "statement": "Filtering relationships calls the filter once for each relationship, in order, and returns exactly the identifiers it returned, in order and with repetitions, also if the filter has side effects.", "quantifier": "every list of relationships and every filter function", "why_tests_cant": "the filter is an arbitrary function", "anchors": ["spdxlib/relationships.go:FilterRelationships"]}
{"id": "C27", "title": "License pairing covers exactly the files of both packages", "statement": "Pairing two packages' files yields one entry per file name occurring in either, giving the license from the first and from the second package, empty where the file is absent.", "quantifier": "every pair of file lists", "why_tests_cant": "arbitrary lists with overlaps and repeated names", "anchors": ["licensediff/licensediff.go:MakePairs"]}
{"id": "C28", "title": "License diff classifies every file exactly once", "statement": "Every compared file is in exactly one of the four groups and no other file is in any; the order in which the map is visited is irrelevant; and if every file has a concluded license the groups say the truth: same license in both, different licenses, only in the first, only in the second.", "quantifier": "every map of license pairs", "why_tests_cant": "arbitrary maps; the missing case is encoded by an empty string", "anchors": ["licensediff/licensediff.go:MakeResults"]}
{"id": "C29", "title": "License report counts add up", "statement": "In a license report every file is counted exactly once: found plus not-found equals the number of files, each listed count is the number of files with that concluded license, and the lines are ordered by decreasing count. The report is printed as two tables with the numbers aligned to the right, provided that no license has tabs or line ends; in any case printing changes nothing but blanks.", "quantifier": "every package file list", "why_tests_cant": "arbitrary lists; order of equal counts depends on map iteration", "anchors": ["reporter/reporter.go:countLicenses", "reporter/reporter.go:Generate"]}
{"id": "C30", "title": "License expressions are split into exactly their identifiers", "statement": "The individual licenses extracted from an expression are, sorted, exactly its stretches between spaces, parentheses and plus signs that are not the operators AND, OR and WITH in any case, without white space around them; none is empty or contains a space, parenthesis or plus sign.", "quantifier": "every list of expression strings", "why_tests_cant": "expressions are unbounded strings", "anchors": ["idsearcher/idsearcher.go:getIndividualLicenses"]}
{"id": "C31", "title": "Combining several short-form identifiers keeps their meaning", "statement": "When several license expressions are joined with AND, the result reads, in the grammar of license expressions where AND binds stronger than OR, as the conjunction of the meanings of all of them and has no other reading; an expression that contains AND or OR between spaces is parenthesised, others are unchanged.", "quantifier": "every identifier string", "why_tests_cant": "unbounded strings", "anchors": ["idsearcher/idsearcher.go:makeElement", "idsearcher/idsearcher.go:BuildIDsDocument"]}
{"id": "C32", "title": "Identifier search finds tagged lines only, as a sorted set", "statement": "Searching a text returns, sorted and each once, exactly the short-form identifiers of its lines up to the first line longer than the scanner's limit: the text after the first tag of a line, if at most five identifier characters precede the tag, up to the end of the comment or line, without surrounding white space, reduced to identifier characters; a text without the tag yields nothing.", "quantifier": "every file content", "why_tests_cant": "unbounded text", "anchors": ["idsearcher/idsearcher.go:searchFileIDs", "idsearcher/idsearcher.go:stripTrash"]}
{"id": "C33", "title": "The builder numbers files uniquely and in path order", "statement": "A built package lists exactly the non-ignored files, each once, in the order of their paths, with distinct identifiers numbered from 0 and their digests; its verification code is the SHA-1 of the sorted SHA-1 digests of all of them; building fails exactly if the directory or a non-ignored file cannot be read.", "quantifier": "every directory tree and every ignore list", "why_tests_cant": "trees of any size", "anchors": ["builder/build_package.go:BuildPackageSection", "builder/build_file.go:BuildFileSection"]}
{"id": "C34", "title": "Built documents are valid and describe their package", "statement": "A document produced by the builder passes document validation and the described-package query returns the built package.", "quantifier": "every directory tree, package name and configuration", "why_tests_cant": "composition of three components over unbounded inputs", "anchors": ["builder/build.go:Build", "builder/build_relationship.go", "spdxlib/documents.go", "spdxlib/described_elements.go"]}
{"id": "C35", "title": "Loading JSON turns documentDescribes and hasFiles into relationships without duplicates", "statement": "After loading a JSON document of version 2.2 or 2.3, the document's own relationships are kept in order without nulls, each documentDescribes entry and each package's hasFiles entry is expressed by a relationship in one direction or the other (if relationship types contain no hyphen and identifiers no '>'), only such entries are added, no added relationship repeats another one in either direction, and loading what was loaded adds nothing.", "quantifier": "every document content", "why_tests_cant": "arbitrary lists with overlaps between three sources", "anchors": ["spdx/v2/v2_3/document.go:Document.UnmarshalJSON", "spdx/v2/v2_2/document.go:Document.UnmarshalJSON"]}
{"id": "C36", "title": "FilesAnalyzed defaults to true exactly when omitted", "statement": "After loading a JSON package of version 2.2 or 2.3, files-analyzed is true and marked absent if the field was omitted or null, and otherwise equals the given value and is marked present; a value that is not a boolean is an error.", "quantifier": "every JSON package", "why_tests_cant": "interaction of default and explicit values over all packages", "anchors": ["spdx/v2/v2_3/package.go:Package.UnmarshalJSON", "spdx/v2/v2_2/package.go"]}
{"id": "C37", "title": "External reference categories survive JSON in both spellings", "statement": "Loading a package external reference accepts the underscore and the hyphen spelling of the category and yields the hyphen one; saving and loading returns the same category for every category without underscore.", "quantifier": "every category string", "why_tests_cant": "arbitrary strings", "anchors": ["spdx/v2/v2_3/package.go:PackageExternalReference", "spdx/v2/v2_2/package.go:PackageExternalReference"]}
{"id": "C38", "title": "Reading dispatches on the stated version", "statement": "Reading tag-value text into a document variable succeeds exactly if the text is a list of pairs, the first SPDXVersion pair names a supported version, and the pairs are a document by the rules of that version; it never panics; the document read carries the version of the variable, if the text does not state two different versions. Likewise for JSON, if no key occurs twice.", "quantifier": "every text, every version of the variable; every JSON value", "why_tests_cant": "any pair list; any version string", "anchors": ["tagvalue/reader.go:ReadInto", "json/reader.go:ReadInto", "convert/chain.go:Document"]}
{"id": "C39", "title": "Error descriptions of long text never crash", "statement": "Shortening text for an error description returns the text itself if it is short, and otherwise, if it has at least the required number of characters, that many of its first characters followed by an ellipsis; ASCII text is always shortened without a panic.", "quantifier": "every string and every length", "why_tests_cant": "the unsafe case needs particular multi-byte strings", "anchors": ["convert/struct.go:limit", "convert/struct.go:Describe"]}
{"id": "C40", "title": "RDF license expressions are read without looping", "statement": "Reading a license from an RDF graph terminates on every graph. It succeeds exactly if the graph describes a license tree at the node and no walk through the members of license sets meets a node twice (a cycle), one that is being read already, or one that is not described in a known way; the text then is that of the tree, of which there is only one. Reading the whole graph terminates as well.", "quantifier": "every finite RDF graph, including cyclic and shared ones", "why_tests_cant": "graphs of any shape", "anchors": ["spdx/v2/v2_3/rdf/reader/parse_license.go:getAnyLicenseFromNode"]}
{"id": "C41", "title": "RDF license expressions keep their meaning", "statement": "The text made of a license tree in an RDF graph is a license expression with the meaning of the tree and no other meaning, so that trees of different meaning have different texts, provided that no choice between several licenses stands inside a conjunctive set, no set is empty, and each license is called by a license name (as those of the license list are). Without the first condition the property is false, because members are joined without parentheses; the operators for later versions and exceptions are dropped.", "quantifier": "every license tree and every graph that describes one", "why_tests_cant": "trees of any depth", "anchors": ["spdx/v2/v2_3/rdf/reader/license_utils.go:ToLicenseString"]}
{"id": "C42", "title": "Reading RDF never panics", "statement": "For every RDF graph in which each root has a class and no node that is used as a file or package is used as something else, reading returns a document or an error. Without either condition it can panic: the first class of each root is taken without a check, and a cached object is converted to the kind that is expected.", "quantifier": "every finite RDF graph", "why_tests_cant": "graphs of any shape, in particular nodes used in two roles", "anchors": ["spdx/v2/v2_3/rdf/reader/parser.go:LoadFromGoRDFParser", "spdx/v2/v2_3/rdf/reader/parse_package.go:getPackageFromNode", "spdx/v2/v2_3/rdf/reader/parse_file.go:getFileFromNode"]}
{"id": "C43", "title": "Identity of packages and files read from RDF", "statement": "In a document read from RDF, the files outside packages have different identifiers, none of which is that of a file in a package; and if nodes have one role and different names, packages with equal identifiers are equal and so are the files in packages. Each package that the document describes is in the list of packages, but more than once, and an element that is referred to several times has its lists filled several times. The identifier of a package or file is the last part of the name of its node without SPDXRef-.", "quantifier": "every finite RDF graph", "why_tests_cant": "sharing patterns are unbounded", "anchors": ["spdx/v2/v2_3/rdf/reader/parse_spdx_document.go:parseSpdxDocumentNode", "spdx/v2/v2_3/rdf/reader/parse_package.go:getPackageFromNode", "spdx/v2/v2_3/rdf/reader/parse_file.go:getFileFromNode"]}
{"id": "C44", "title": "Package external references, snippets ranges and checksums are read back as written", "statement": "The composite single-line values of tag-value (external reference 'category type locator', checksum 'algorithm: value', snippet range 'start:end', external document reference, verification code with exclusion) are parsed back to the value that was written.", "quantifier": "every component string without the separator characters; every integer", "why_tests_cant": "strings and integers are unbounded", "anchors": ["spdx/v2/v2_3/tagvalue/reader/parse_package.go:extractPackageExternalReference", "spdx/v2/v2_3/tagvalue/reader/parse_snippet.go", "spdx/v2/v2_3/tagvalue/reader/util.go:extractCodeAndExcludes", "spdx/v2/v2_3/tagvalue/reader/parse_creation_info.go:extractExternalDocumentReference"]}
{"id": "C47", "title": "A document survives writing and reading JSON", "statement": "Writing a document of any version as JSON and reading the result, with or without HTML escaping and whatever the order of the entries of objects, yields the same document, except for what JSON leaves out: reviews, the subjects of annotations, snippets inside files, attribution texts of snippets, and fields the version does not have; provided that identifiers, references, creators, annotators, suppliers and originators need no JSON escapes and are well-formed. A text field is read as the same text whichever spelling of its characters JSON allows.", "quantifier": "every document of versions 2.1, 2.2 and 2.3 with well-formed identifiers and agents", "why_tests_cant": "all field contents, including empty and omitted ones, in all combinations", "anchors": ["json/reader.go:ReadInto", "json/writer.go:Write", "spdx/v2/v2_3/document.go:Document", "spdx/v2/v2_3/package.go:Package", "spdx/v2/v2_2/package.go:Package.MarshalJSON", "spdx/v2/v2_3/file.go:File"]}
{"id": "C48", "title": "The document itself is what the pairs say", "statement": "In a parsed tag-value document, the header fields have the values given last, the document identifier is the one given before the first package or file, creators and external document references are those listed, in order, and every relationship, annotation, review and extracted license is the one its opening tag states, completed by the tags that follow up to the next opening tag of its kind; creation information is missing only if there is nothing but header tags.", "quantifier": "every list of tag-value pairs accepted by the parser, in every version", "why_tests_cant": "any number of objects, interleaved with package, file and snippet sections in any way", "anchors": ["spdx/v2/v2_3/tagvalue/reader/parser.go:parsePairFromStart", "spdx/v2/v2_3/tagvalue/reader/parse_creation_info.go:parsePairFromCreationInfo", "spdx/v2/v2_3/tagvalue/reader/parse_relationship.go:parsePairForRelationship", "spdx/v2/v2_3/tagvalue/reader/parse_annotation.go:parsePairForAnnotation", "spdx/v2/v2_3/tagvalue/reader/parse_review.go:parsePairFromReview", "spdx/v2/v2_3/tagvalue/reader/parse_other_license.go:parsePairFromOtherLicense"]}
{"id": "C45", "title": "A document built from short-form identifiers says what the files say", "statement": "Building a document from short-form identifiers succeeds exactly if building the plain document does, and then differs from it only in licenses: each file that is not ignored and has identifiers lists, sorted and without repetition, exactly the licenses its identifiers mention, and concludes the conjunction of its identifiers; other files say NOASSERTION; the package lists exactly the licenses of its files. The document is valid and describes its package.", "quantifier": "every directory tree, file contents, patterns of the builder and of the search", "why_tests_cant": "any number of files, tags and expressions; ignore patterns combine freely", "anchors": ["idsearcher/idsearcher.go:BuildIDsDocument", "idsearcher/idsearcher.go:searchFileIDs", "idsearcher/idsearcher.go:getIndividualLicenses", "idsearcher/idsearcher.go:makeElement"]}
{"id": "C46", "title": "A built document survives being written and read", "statement": "A document built from a directory, with or without searching for short-form identifiers, can be written as tag-value, and reading the text gives an equal document, if the package name has no white space or colon, the file names, the namespace prefix and the time are one-line texts, and the identifiers found are one-line texts.", "quantifier": "every directory tree, file contents, configuration meeting the conditions", "why_tests_cant": "any number of files with any names and identifiers", "anchors": ["builder/build.go:Build", "idsearcher/idsearcher.go:BuildIDsDocument", "tagvalue/writer.go:Write", "tagvalue/reader.go:Read"]}
{"id": "C49", "title": "The document read from RDF is what the graph says about it", "statement": "If reading an RDF graph yields a document, the graph has exactly one root that is said to be the document, and the document has what the statements about this root say: name, version, license, comment, namespace and identifier from the URI, creation information, external documents, reviews and extracted licenses. Each of these statements has a known property and a value that can be read; single values are those of the last statement, lists those of all, in order. (The identifier keeps SPDXRef-, unlike that of other elements.)", "quantifier": "every finite RDF graph in which nodes have one role and different names", "why_tests_cant": "graphs with any number of statements in any order", "anchors": ["spdx/v2/v2_3/rdf/reader/parse_spdx_document.go:parseSpdxDocumentNode", "spdx/v2/v2_3/rdf/reader/parse_creation_info.go:parseCreationInfoFromNode", "spdx/v2/v2_3/rdf/reader/parser.go:LoadFromGoRDFParser"]}
{"id": "C50", "title": "Files read from RDF are what the graph says about them", "statement": "Every file of a document read from RDF, in a package or outside, has what the statements about its node say and nothing else, where the statements may have been read several times, so that lists may be repeated. A statement with an unknown property or an illegal value makes the reading fail. Two files of the document with the same identifier are equal.", "quantifier": "every finite RDF graph in which nodes have one role and different names", "why_tests_cant": "graphs of any size; files shared and in cycles", "anchors": ["spdx/v2/v2_3/rdf/reader/parse_file.go:getFileFromNode"]}
{"id": "C51", "title": "Packages read from RDF are what the graph says about them", "statement": "Every package of a document read from RDF has what the statements about its node say and nothing else, and its files are files of the nodes that it is said to have. (Primary purposes given as the URIs that RDF has for them are dropped silently.) Two packages of the document with the same identifier are equal.", "quantifier": "every finite RDF graph in which nodes have one role and different names", "why_tests_cant": "graphs of any size; packages shared and in cycles", "anchors": ["spdx/v2/v2_3/rdf/reader/parse_package.go:getPackageFromNode", "spdx/v2/v2_3/rdf/reader/parse_package.go:setPackageVerificationCode"]}
{"id": "C52", "title": "Relationships, annotations and dependencies read from RDF are those of the graph", "statement": "Every relationship and every annotation of a document read from RDF is one that the graph states, and every relationship, annotation and file dependency that the graph states of the document or of a file or package in it is in the document, with the file or package it is to. Annotations lose the element they are about. The types of relationships keep their RDF spelling, so that the packages that a document from RDF describes are never found by GetDescribedPackageIDs if it says it describes a package.", "quantifier": "every finite RDF graph in which nodes have one role and different names", "why_tests_cant": "graphs of any size, with cycles through relationships", "anchors": ["spdx/v2/v2_3/rdf/reader/parse_relationship.go:parseRelationship", "spdx/v2/v2_3/rdf/reader/parse_annotation.go:parseAnnotationFromNode", "spdxlib/described_elements.go:GetDescribedPackageIDs"]}
{"id": "C53", "title": "Snippets read from RDF are those of the graph", "statement": "Every snippet of a file read from RDF is what the statements about a snippet node of the graph say and is filed under its identifier in the file it is from; and if snippets have different identifiers, every snippet that is a root of the graph is in the document. Only the last range of a snippet is kept. No file has two snippets under the same identifier.", "quantifier": "every finite RDF graph in which nodes have one role and different names", "why_tests_cant": "any number of snippets and ranges", "anchors": ["spdx/v2/v2_3/rdf/reader/parse_snippet_info.go:getSnippetInformationFromNode2_3", "spdx/v2/v2_3/rdf/reader/parse_snippet_info.go:setSnippetToFileWithID"]}
{"id": "C54", "title": "Exactly the legal RDF graphs are read", "statement": "An RDF graph is read without an error if and only if the first version it gives is SPDX-2.2 or SPDX-2.3 and it is legal for this version: every root has exactly one class, there is exactly one document, and everything that is said about the document, the files, packages and relationships it leads to, their annotations, and the snippets among the roots has a known property and a value that can be read; every snippet is from a file that it names. What is said about nodes that the document and its snippets do not lead to does not matter.", "quantifier": "every finite RDF graph in which nodes have one role and different names, relationships belong to one statement, and names of files in snippets have no space around them", "why_tests_cant": "graphs of any size with cycles; both what is accepted and what is rejected are infinite", "anchors": ["rdf/reader.go:ReadInto", "spdx/v2/v2_3/rdf/reader/parser.go:LoadFromGoRDFParser", "spdx/v2/v2_3/rdf/reader/parse_file.go:getFileFromNode", "spdx/v2/v2_3/rdf/reader/parse_package.go:getPackageFromNode", "spdx/v2/v2_3/rdf/reader/parse_snippet_info.go:getSnippetInformationFromNode2_3"]}
{"id": "C55", "title": "Packages, files and snippets are what their sections of a tag-value text say", "statement": "The files and packages of a parsed document are, in order, the file sections before the first package section and the package sections of the text; a package's files are the file sections that follow it, and a file's snippets the snippet sections that follow it, the last one of those with the same identifier. Every field of a package, file or snippet is what the pairs of its own section say - the last value of a tag that is given once, all values of one that is repeated, external references and artifacts with the pairs describing them, and identifiers, checksums, agents, verification codes and ranges as their text says - and nothing else; a section that repeats its SPDXID is listed as often as it does. In a text that is parsed every package and file section gives an identifier and every snippet section follows a file section.", "quantifier": "every list of tag-value pairs that is parsed, in which packages have names, in every supported version", "why_tests_cant": "any number of sections, nested in any way, with any tags in any order between them; a value can end up in the wrong object only for some order of sections", "anchors": ["spdx/v2/v2_3/tagvalue/reader/parse_package.go:parsePairFromPackage", "spdx/v2/v2_3/tagvalue/reader/parse_file.go:parsePairFromFile", "spdx/v2/v2_3/tagvalue/reader/parse_snippet.go:parsePairFromSnippet", "spdx/v2/v2_3/tagvalue/reader/parser.go:ParseTagValues"]}
{"id": "C56", "title": "Exactly the legal tag-value texts are read", "statement": "A list of tag-value pairs whose packages have names is parsed into a document exactly if it is not empty and every pair is legal: its tag is one of those of the part of the text it stands in (header, package, file, snippet, extracted license or review, in the version at hand), what must come before it does (the document's own tags before its creation information, the relationship before its comment, the annotator before the rest of the annotation, the external reference or artifact directly before its description), its value is well-formed (identifiers, references to other documents, agents, suppliers and originators, checksums, external references, ranges, relationships), and a package or file section gives an identifier before the next section opens. Any other list is an error. Snippets are legal only behind a file or another snippet. A text is read into a document exactly if its lines are well-formed, the first SPDXVersion is supported and its pairs are legal in that version.", "quantifier": "every list of tag-value pairs, and every text, in which packages have names, in every supported version", "why_tests_cant": "any number of pairs in any order: both that nothing illegal is let through and that nothing legal is rejected are claims about all of them", "anchors": ["spdx/v2/v2_3/tagvalue/reader/parser.go:ParseTagValues", "spdx/v2/v2_3/tagvalue/reader/parser.go:parsePair", "spdx/v2/v2_3/tagvalue/reader/parse_creation_info.go:parsePairFromCreationInfo", "spdx/v2/v2_3/tagvalue/reader/parse_package.go:parsePairFromPackage", "spdx/v2/v2_3/tagvalue/reader/parse_file.go:parsePairFromFile", "spdx/v2/v2_3/tagvalue/reader/parse_snippet.go:parsePairFromSnippet", "spdx/v2/v2_3/tagvalue/reader/parse_other_license.go:parsePairFromOtherLicense", "spdx/v2/v2_3/tagvalue/reader/parse_review.go:parsePairFromReview", "tagvalue/reader.go:ReadInto"]}
{"id": "C57", "title": "JSON documents are read as exactly what they say, and only those that say something", "statement": "Reading a JSON object in which no object has a key twice (upper and lower case counting as the same) and no array has a null entry gives a document exactly if the object states a supported version and every key of a document, package, file, snippet, relationship, annotation, license, checksum and so on holds a value of its kind; the document then has, field by field, what the object says under these keys, in order, and nothing else: missing keys and null leave fields unset, keys that are not part of the version are ignored, files count as analyzed unless a 2.2 or 2.3 package says otherwise, and the relationships are completed by documentDescribes and hasFiles. Any other such object is an error.", "quantifier": "every JSON value without repeated keys and null array entries, every version, every variable read into", "why_tests_cant": "any number of packages, files, relationships and so on, with any values under any keys in any order: both that nothing is lost, mixed up or made up and that exactly the well-formed objects are accepted are claims about all of them", "anchors": ["json/reader.go:ReadInto", "spdx/v2/v2_3/document.go:UnmarshalJSON", "spdx/v2/v2_3/package.go:UnmarshalJSON", "spdx/v2/v2_2/document.go:UnmarshalJSON", "spdx/v2/v2_2/package.go:UnmarshalJSON", "spdx/v2/v2_1/document.go:Document", "spdx/v2/common/identifier.go:UnmarshalJSON", "spdx/v2/common/package.go:UnmarshalJSON", "spdx/v2/common/creation_info.go:UnmarshalJSON", "spdx/v2/common/annotation.go:UnmarshalJSON"]}
{"id": "C58", "title": "JSON text: exactly RFC 8259 is accepted, layout does not matter, and what is written can be read", "statement": "A text is accepted as JSON exactly if it follows the grammar of RFC 8259 with at most 10000 levels of arrays and objects, and it then stands for one value only; text that is not JSON, or not of an object, is an error. Two texts of the same value that differ in blanks are read as the same document or are both errors. A text is read as exactly what its object says (C57). Writing with any option for HTML escaping and any indentation made of blanks gives JSON text; reading it back gives the document that was written, up to what JSON does not carry (C47).", "quantifier": "every text, every value, every document and version, every indentation and both escaping options", "why_tests_cant": "the accepted texts are an infinite, recursively defined language, with layouts without number; that no text outside it is accepted and no text inside is refused or read two ways needs a proof by induction over its grammar", "anchors": ["json/reader.go:ReadInto", "json/writer.go:Write", "json/writer.go:Indent", "json/writer.go:EscapeHTML"]}
{"id": "C59", "title": "The order of keys in JSON does not matter, and reading JSON never panics", "statement": "Two JSON texts whose values differ only in the order of the entries of objects, at any depth, and in layout are read as the same document or are both errors, if no key occurs twice in an object, no array has null entries and no array or object stands in place of an agent. Reading any text into any variable returns a document or an error and never panics.", "quantifier": "every pair of texts and values related by reordering at any depth; every text", "why_tests_cant": "factorially many orders at every level of nesting; custom decoders that look at raw text and maps that remember what was seen could depend on the order for some inputs only", "anchors": ["json/reader.go:ReadInto", "spdx/v2/v2_3/document.go:UnmarshalJSON", "spdx/v2/v2_3/package.go:UnmarshalJSON", "spdx/v2/v2_2/document.go:UnmarshalJSON", "spdx/v2/v2_2/package.go:UnmarshalJSON"]}
{"id": "C60", "title": "YAML carries the same documents as JSON", "statement": "Reading a YAML text gives the document or error that reading JSON text of the same value gives, whatever the order of keys; it gives exactly what the value says (C57), and never panics. Writing a document as YAML and reading it back gives the document, up to what JSON does not carry (C47), provided the YAML library keeps the value up to the order of keys.", "quantifier": "every text, every document and version, every behaviour of the YAML library that keeps the value", "why_tests_cant": "all documents and all texts; the library reorders keys and is called twice with different targets", "anchors": ["yaml/reader.go:ReadInto", "yaml/writer.go:Write"]}
{"id": "C61", "title": "Tag-value text is read as exactly what it says", "statement": "Reading tag-value text succeeds with a document exactly if the text consists of pairs (blank lines, comments, one-line fields and <text> blocks), the pairs are legal in their version, and they describe that document: every field of the document, its packages, files and snippets is determined by the pairs, and nothing else is in it. A text consists of at most one list of pairs, and pairs describe at most one document, up to the order of the snippet maps. Package names must not be empty.", "quantifier": "every text, every list of pairs, every document and version", "why_tests_cant": "an equivalence over all texts and all documents: tests show that some texts give some documents, not that no text gives another one or has another reading", "anchors": ["tagvalue/reader/reader.go:ReadTagValues", "tagvalue/reader/v2_3/parser.go:ParseTagValues", "tagvalue/reader/v2_2/parser.go:ParseTagValues", "tagvalue/reader/v2_1/parser.go:ParseTagValues", "tagvalue/reader.go:ReadInto"]}
{"id": "C62", "title": "Converting a document to another version loses only what one of the versions has no field for", "statement": "convert.Document succeeds from every version to every version, and the result is the same document: same packages, files, snippets, relationships, annotations, licenses, reviews and their fields, in the same order; what is missing are the fields one of the two versions does not have (attribution texts and the mark of unpackaged files before 2.2, purpose and dates of packages before 2.3), and the stated version is the new one. No difference is made between no verification code and an empty one. Converting to a newer version and back gives the document itself. Reading a text or JSON of one version into a variable of another gives what it says, converted. Packages, files and snippets must have identifiers, and nothing pointed to may be entirely empty.", "quantifier": "every document, every pair of versions, every behaviour of the copying library on empty structs", "why_tests_cant": "the field names of some twenty structs in three versions have to match for every combination of values; tests convert a few documents and compare what JSON shows of them", "anchors": ["convert/chain.go:DocumentChain", "convert/chain.go:Document", "spdx/v2/v2_2/document.go:From_v2_1", "spdx/v2/v2_2/document.go:To_v2_1", "spdx/v2/v2_3/document.go:From_v2_2", "spdx/v2/v2_3/document.go:To_v2_2"]}
{"id": "C63", "title": "Reading does not depend on how the input arrives, and failures of reader and writer do not go unnoticed", "statement": "What is read depends only on the bytes the io.Reader delivers, not on the sizes of the pieces they come in. If the reader fails at any point, reading returns an error and no document. json.Write and yaml.Write return nil only if the whole text reached the io.Writer; if they return an error at most a beginning of it did. tagvalue.Write does not check, and neither does reporter.Generate for its license report: they return nil also when nothing arrived; what can be relied on is that the whole text arrived if no call of Write failed (as a writer that remembers its first error can tell), and that a beginning of it arrived if the writer takes nothing after a failure.", "quantifier": "every text, every division into pieces, every point of failure, every writer that keeps the contract of io.Writer, every document", "why_tests_cant": "tests read from strings and write to buffers, which deliver at once and never fail; the points at which a stream can be cut are unlimited", "anchors": ["tagvalue/reader/reader.go:ReadTagValues", "tagvalue/reader.go:ReadInto", "json/reader.go:ReadInto", "yaml/reader.go:ReadInto", "json/writer.go:Write", "yaml/writer.go:Write", "tagvalue/writer.go:Write", "spdx/v2/v2_3/tagvalue/writer/save_document.go:RenderDocument", "reporter/reporter.go:Generate"]}
{"id": "C64", "title": "The tag-value text written for a document is a legal text that says this document and no other", "statement": "The text tagvalue.Write produces for a document that the format can represent is legal tag-value text of its version, independently of the reader of this project: it divides into tags and values in one way only, every tag is in its place with a value of its form, and the only document it describes is the document written, up to the order of packages, files, references and snippets. Two representable documents are written as the same text exactly if they are the same document in this sense.", "quantifier": "every representable document of every version, every sorting routine", "why_tests_cant": "tests compare single outputs with expected texts; that no two of infinitely many documents share a text, and that no text is illegal, cannot be sampled", "anchors": ["tagvalue/writer.go:Write", "spdx/v2/v2_3/tagvalue/writer/save_document.go:RenderDocument", "spdx/v2/v2_2/tagvalue/writer/save_document.go:RenderDocument", "spdx/v2/v2_1/tagvalue/writer/save_document.go:RenderDocument"]}
{"id": "C65", "title": "A document survives being passed on from one format to another", "statement": "A program that writes a document as tag-value, JSON or YAML, reads what it wrote, writes it in the next format, and so on, any number of times and in any order, ends with the same document, up to the order of packages, files and references, and the same tag-value text; provided both formats can carry the document: identifiers and names are plain, texts do not contain the markers of tag-value blocks, snippets, reviews and subjects of annotations are not used, and package, file and reference identifiers are distinct. A document that only tag-value carries in full arrives in JSON without exactly the listed parts.", "quantifier": "every portable document of every version, every sequence of formats of any length, every indentation, every behaviour of sorting, and every YAML library that keeps values", "why_tests_cant": "tests convert a few sample documents once; a difference that builds up over several passes or for some combination of fields is not seen", "anchors": ["tagvalue/writer.go:Write", "tagvalue/reader.go:ReadInto", "json/writer.go:Write", "json/reader.go:ReadInto", "yaml/writer.go:Write", "yaml/reader.go:ReadInto", "examples/8-jsontotv/examplejsontotv.go:main", "examples/9-tvtojson/exampletvtojson.go:main"]}
{"id": "C66", "title": "Documents with missing entries", "statement": "The slices of pointers of a document may hold nil. The JSON reader turns an entry null of an array of packages, files, external references, artifacts, extracted licenses or annotations into a nil pointer, drops null relationships from version 2.2 on, and never panics; without null entries the document has no nil pointer. The JSON writer never panics. The tag-value writer panics exactly if the document has creation information and one of its slices or snippet maps holds nil, and otherwise writes the text of the plain document; ValidateDocument panics exactly if a package or file is nil, or a relationship is nil and all those before it are between known elements. Written as JSON and read again, a document keeps its nil entries, but for relationships from version 2.2 on. So a document read from JSON without null entries makes none of them panic, and one with null entries does.", "quantifier": "every JSON value, every document with any number of nil pointers in any of its slices and maps, every version, and every behaviour of sorting that depends on keys only", "why_tests_cant": "a nil pointer may sit in any of ten lists at any depth and position, and the order in which things are sorted and printed decides whether it is reached", "anchors": ["json/reader.go:ReadInto", "json/writer.go:Write", "spdx/v2/v2_3/document.go:Document.UnmarshalJSON", "spdx/v2/v2_3/tagvalue/writer/save_document.go:RenderDocument", "spdx/v2/v2_3/tagvalue/writer/save_package.go:renderPackage", "spdx/v2/v2_3/tagvalue/writer/save_file.go:renderFile", "spdxlib/documents.go:ValidateDocument"]}
{"id": "C67", "title": "Loading a tag-value text and saving it keeps the document", "statement": "If every value of a tag-value text is written tidily (no stray spaces inside <text>, only free texts of several lines, names of packages, files and licenses not empty, identifiers without white space, agents and checksums complete, ranges not zero), the text says something about its creation, packages whose files were not analyzed have no verification code, and snippets name their file, then the document that is loaded from it can be saved, the saved text is loaded as the same document in order, says the same under the rules of the format, and loading and saving it once more gives the same text. In a text without <text> the conditions on spaces and lines always hold. Each condition but those on words is needed: without it there is a text whose document is changed, or can no longer be loaded, by saving it.", "quantifier": "every text, of any length and with tags in any order, every version, every behaviour of sorting", "why_tests_cant": "what a save loses depends on any combination of tags, values and sections of a text of any length; tests start from documents made by hand, not from arbitrary texts", "anchors": ["tagvalue/reader.go:Read", "tagvalue/writer.go:Write", "tagvalue/reader/reader.go:readNextTagValuePairFromScanner", "spdx/v2/v2_3/tagvalue/reader/parser.go:ParseTagValues", "spdx/v2/v2_3/tagvalue/writer/save_document.go:RenderDocument", "spdx/v2/v2_3/tagvalue/reader/parse_package.go:parsePairFromPackage"]}
{"id": "C68", "title": "Loading a JSON or YAML document and saving it keeps the document", "statement": "If a JSON document gives every identifier, reference, creator and annotator it needs, writes them, its suppliers and its originators without escapes, does not repeat their prefixes and refers to elements and not to whole documents, then the document loaded from it can be saved with any indentation, and the saved text is loaded as the same document; the only difference is that every package now says whether its files were analyzed. What was loaded from a saved text is saved as the same text again. The same holds for YAML. Relationships that were stated by documentDescribes or hasFiles, keys in other letter case, unknown keys, escapes in other texts and the layout do not matter. Each condition is needed: without it there is a document that saving changes, or that can no longer be saved or loaded.", "quantifier": "every JSON or YAML text, of any size and nesting, with keys in any order and spelling, every version, indentation and behaviour of sorting", "why_tests_cant": "documents of any size, with optional keys in any combination; tests start from documents made by hand and compare a few fields", "anchors": ["json/reader.go:ReadInto", "json/writer.go:Write", "yaml/reader.go:Read", "yaml/writer.go:Write", "spdx/v2/common/identifier.go:DocElementID.MarshalJSON", "spdx/v2/v2_3/document.go:Document.UnmarshalJSON", "spdx/v2/v2_3/package.go:Package.UnmarshalJSON", "spdx/v2/common/package.go:Supplier.MarshalJSON"]}
{"id": "C69", "title": "A document read from RDF has what it leads to, and nothing else", "statement": "Take an RDF graph whose nodes have one role and one name, and in which every relationship belongs to one element. If it is read, then the document contains exactly the files, packages, relationships and annotations that its node and its snippets lead to: the packages it describes, the files they contain, the files that files depend on, the relationships of all of these and the files and packages these are to, the files of snippets and of the ends of their ranges. Each of them is what the statements about its node say. Nothing else of the graph is in the document: packages and files that nothing in the document refers to are dropped without an error.", "quantifier": "every RDF graph that is read, of any size and shape, with cycles, every version and order of map iteration", "why_tests_cant": "graphs of any shape, with files that are reached by several ways or through cycles; a test compares a few elements", "anchors": ["spdx/v2/v2_3/rdf/reader/parser.go:LoadFromGoRDFParser", "spdx/v2/v2_3/rdf/reader/parse_spdx_document.go:parseSpdxDocumentNode", "spdx/v2/v2_3/rdf/reader/parse_package.go:getPackageFromNode", "spdx/v2/v2_3/rdf/reader/parse_file.go:getFileFromNode", "spdx/v2/v2_3/rdf/reader/parse_relationship.go:parseRelationship", "spdx/v2/v2_3/rdf/reader/parse_snippet_info.go:getSnippetInformationFromNode2_3"]}
{"id": "C70", "title": "The order of the statements in an RDF document does not matter", "statement": "The statements of an RDF document have no order, and the RDF library hands them to the reader in an order of its own. Take an RDF graph that can be read, and a graph with the same statements in another order. If no node has two values for a property that should have one, and nodes have one role and one name, then the second graph is read as well, and the two documents are the same up to the order and number of the members of lists: files, packages, relationships, annotations, licenses, snippets, and the members of license sets in license expressions. This is so whatever the order of map iteration in the two runs. What does depend on the order is the file in which the ends of a range are (it must be given before the range), and which value is kept if a property has several. A graph in which a statement is repeated may be rejected.", "quantifier": "every RDF graph that is read, every permutation of its statements, every version, every two orders of map iteration", "why_tests_cant": "all orders of the statements of graphs of any size; tests read one file with the order that the library happens to give", "anchors": ["rdf/reader.go:Read", "spdx/v2/v2_3/rdf/reader/parser.go:LoadFromGoRDFParser", "spdx/v2/v2_3/rdf/reader/parse_spdx_document.go:parseSpdxDocumentNode", "spdx/v2/v2_3/rdf/reader/parse_package.go:getPackageFromNode", "spdx/v2/v2_3/rdf/reader/parse_file.go:getFileFromNode", "spdx/v2/v2_3/rdf/reader/parse_license.go:getAnyLicenseFromNode", "spdx/v2/v2_3/rdf/reader/parse_snippet_info.go:setSnippetRangeFromNode"]}
{"id": "C71", "title": "Text in any script, and bytes that are no text, are read and written as they are", "statement": "A Go string is a sequence of bytes, and tag-value files may hold text in any script, or in an encoding other than UTF-8. Reading the bytes of a UTF-8 text gives the bytes of the fields that the text has, character by character: no character is torn apart, wherever white space is trimmed, a tag is cut off or a line is ended. Reading any bytes never panics, and what is read is made of bytes of the input: nothing is replaced or invented. Fields of any bytes, printed by the writer and read again, are unchanged, if a tag has no colon or line break and does not begin with #, a value of one line has no <text>, a value of several lines has no </text> and no carriage return before a line break, and tags and one-line values do not begin or end with white space, of any script. On UTF-8, searching, cutting, trimming, splitting and sorting strings by bytes is the same as by characters.", "quantifier": "every byte sequence; every text; every list of fields of any bytes", "why_tests_cant": "all byte sequences, of any length, including every broken encoding at every place; tests use ASCII", "anchors": ["tagvalue/reader/reader.go:ReadTagValues", "tagvalue/reader/reader.go:readNextLineFromReady", "tagvalue/reader/reader.go:readNextLineFromMidtext", "spdx/v2/v2_3/tagvalue/writer/util.go:textify"]}
{"id": "C72", "title": "Saving documents that share memory, one after the other or in parallel", "statement": "Saving a document as tag-value sorts its references, files and packages, and the files of each package, in place: it writes to memory that other documents may share. If no two slices overlap in part, then saving a document leaves every document the same up to order, however documents share packages, files and whole slices. Any sequence of saves, of any documents and versions, gives for each document the text that would have been written for it at the start, if the identifiers that decide on the order are distinct. Documents that have no slice and no package in common (they may share files) can be saved by goroutines at the same time: whatever the schedule, each goroutine finishes, writes the text of its document, and in the end all documents are the same up to order. Not safe are saving one document in two goroutines, which can lose a package, and slices that overlap in part.", "quantifier": "every memory with any number of documents, every pattern of sharing without partial overlap, every sequence of saves, every number of goroutines, every schedule of their single accesses to memory, every sorting routine that keeps the contract of sort.Slice", "why_tests_cant": "all sharing patterns, histories and schedules; tests save one document once, in one goroutine", "anchors": ["spdx/v2/v2_3/tagvalue/writer/save_document.go:RenderDocument", "spdx/v2/v2_3/tagvalue/writer/save_package.go:renderPackage", "spdx/v2/v2_2/tagvalue/writer/save_document.go:RenderDocument", "spdx/v2/v2_1/tagvalue/writer/save_document.go:RenderDocument"]}
{"id": "C73", "title": "Searching a directory whose files are any bytes", "statement": "The files of a searched directory need not be text. Any bytes read as exactly one text, in which every byte that is part of no UTF-8 character is replaced by a character that can stand in no identifier. The search never fails or panics on such a file; it finds, sorted and each once, exactly the identifiers that the lines of that text declare, and these are ASCII whatever the bytes around them are. The document built from the directory is the one built from the texts: the same files, digests, identifiers, errors.", "quantifier": "every directory tree, every assignment of bytes to its files (valid UTF-8 or not, any length, any line endings), every sorting routine, all ignore patterns", "why_tests_cant": "all byte sequences; the test files are short valid UTF-8 texts", "anchors": ["idsearcher/idsearcher.go:BuildIDsDocument", "idsearcher/idsearcher.go:searchFileIDs", "idsearcher/idsearcher.go:stripTrash"]}
{"id": "C74", "title": "What a built document says, and how two builds compare", "statement": "The document that the builder makes from a directory is determined, in every field, by the package name, the configuration, the time, and the paths and digests of the files that are not ignored; it is an error exactly if something cannot be read. So directories that hold the same files give the same document, wherever they are, in whatever order they are listed, and whatever else is in them that is ignored. If the contents of one file change, then only the checksums of its entry, the verification code and the namespace change. If a file is added, the entries of the files before it stay as they are, and those after it only get the next number. The namespaces of two builds under one name are equal exactly if the SHA-1 digests are the same, each as often (no collision provided): renaming a file does not change the namespace.", "quantifier": "every pair of directory trees, every ignore list, name, configuration and time, every sorting routine", "why_tests_cant": "pairs of arbitrary directories; tests build one fixed directory", "anchors": ["builder/build.go:Build", "builder/build_package.go:BuildPackageSection", "builder/build_file.go:BuildFileSection", "builder/build_creation_info.go:BuildCreationInfoSection", "builder/build_relationship.go:BuildRelationshipSection", "idsearcher/idsearcher.go:BuildIDsDocument"]}
{"id": "C75", "title": "The example programs that compare and report licenses", "statement": "The program that compares the licenses of two documents prints, if the described packages of both can be determined, one section for each element that the first document describes (the package is missing, is only in the first document, or four numbers of files), and then one section for each element that the second document describes and that is missing in one of the two; the four numbers are those of the comparison, add up to the number of file names on either side, and do not depend on the order in which maps are walked; it never panics. The program that reports the licenses of a document prints the report of each described package in the order of the document, up to the first whose files were not analyzed or that has no files, where it stops.", "quantifier": "every pair of documents, every map order and sorting routine", "why_tests_cant": "the programs have no tests; arbitrary documents and map orders", "anchors": ["examples/6-licensediff/example_licensediff.go:main", "examples/5-report/example_report.go:main", "licensediff/licensediff.go:MakePairs", "licensediff/licensediff.go:MakeResults", "reporter/reporter.go:Generate", "spdxlib/described_elements.go:GetDescribedPackageIDs"]}
{"id": "C76", "title": "Documents and pointers as arguments", "statement": "Where a document of any version is expected, it can be given directly or by any number of pointers: converting and writing, in every format, give the same result; JSON and YAML are also written through variables of interface type. The variable to convert or read into, in every format, must be a pointer to a document; what it held before does not matter. A target that is not a pointer is an error, and nothing is read. Converting a nil pointer at any depth, or nil itself, panics, and so do writing it as tag-value and reading a document into it; written as JSON it is null, which no reader accepts. Reading or converting a document into a pointer to a pointer to a document of the same version panics. Writing a value of another type as tag-value is an error, or a panic if its text has many bytes and few characters.", "quantifier": "every document, version, text, depth of pointers, and value of another type", "why_tests_cant": "arbitrary depths of pointers and values; tests pass one pointer", "anchors": ["convert/chain.go:Document", "convert/struct.go:FromPtr", "convert/struct.go:IsPtr", "convert/struct.go:Describe", "tagvalue/reader.go:ReadInto", "tagvalue/writer.go:Write", "json/reader.go:ReadInto", "json/writer.go:Write", "yaml/reader.go:ReadInto", "yaml/writer.go:Write", "rdf/reader.go:ReadInto"]}
{"id": "C77", "title": "Converting files, with failures and crashes at any point", "statement": "The programs that load a document from one file and save it to another (tag-value to tag-value, JSON and YAML, and back) never change any file but the output file. If the input cannot be opened, read or parsed, no file is changed and nothing is said to be loaded or saved. At every moment, and so wherever the program is killed, the output file is as it was before or holds a beginning of the text of the document (for tag-value, if nothing is taken after a failed write). If nothing goes wrong it holds the whole text, also when the file is converted in place, and any chain of such programs ends with the same document. The programs that write JSON and YAML say that the document is saved only if it is. A JSON file that was cut off is an error for the reader or read as the whole text is; it is never read as another document. None of this protects the old content: every beginning of the text is in the output file at some moment, a program that is killed, or a document that cannot be written, leaves the output file empty, also when converting in place; a tag-value file that was cut off may be read as another document; and on a full disk a tag-value document is said to be saved when it is not.", "quantifier": "every document, every content of the files, every failure of opening, reading, creating and writing, every moment at which the program is killed, every chain of programs", "why_tests_cant": "points of failure and crash points are unlimited, and no test runs the programs", "anchors": ["examples/2-load-save/example_load_save.go:main", "examples/8-jsontotv/examplejsontotv.go:main", "examples/9-tvtojson/exampletvtojson.go:main", "examples/11-yamltotv/exampleyamltotv.go:main", "examples/12-tvtoyaml/exampletvtoyaml.go:main", "json/reader.go:ReadInto", "json/writer.go:Write"]}
{"id": "C78", "title": "Saving a document in another version", "statement": "A savable tag-value text of one version (2.1, 2.2 or 2.3) can be read into a variable of any other version and saved, if that version can say what the text says: the algorithms of its checksums are algorithms of that version, and in 2.1 no relationship ends in NONE or NOASSERTION. What is saved is read as the document of the text, in the other version: it states that version, and lacks only what one of the two versions has no field for. Going to a newer version therefore needs no condition and loses nothing. However many programs read a text into variables of versions that are not older than its own and save it, what the last one saves is, character for character, what saving the loaded document in that version gives at once; in particular a text that comes back to its own version is saved as if it had never left. None of this holds for older versions: a checksum or an end of a relationship that the older version does not know is written into a text that no reader of that version accepts, and attribution texts are lost on the way. A project of which nothing is said may be lost, depending on the copying library.", "quantifier": "every savable text of every version, every target version, every sequence of versions not older than the text's, every sorting routine and either behaviour of the copying library", "why_tests_cant": "texts and ways through versions are unlimited; the tests of the converter compare a few documents and do not save or read again", "anchors": ["tagvalue/reader.go:ReadInto", "tagvalue/writer.go:Write", "convert/chain.go:Document", "spdx/v2/v2_1/tagvalue/writer/save_document.go:RenderDocument", "spdx/v2/v2_2/tagvalue/writer/save_document.go:RenderDocument", "spdx/v2/v2_3/tagvalue/writer/save_document.go:RenderDocument"]}
{"id": "C79", "title": "Saving a document from RDF as JSON or YAML", "statement": "A document that is read from an RDF graph can be saved as JSON, with or without HTML escaping and with any indentation, and as YAML, if the graph gives what is needed (the end of every relationship, the name of every other document, the annotator of every annotation) and if names of elements and agents contain only characters that JSON writes as they are and do not repeat a prefix. All other texts of the graph are arbitrary. Reading what was saved gives the document that RDF gave, with three differences: reviews and the snippets of files are lost; the prefixes SPDXRef- and DocumentRef-, which the RDF reader leaves in the identifiers of the document and of other documents, are gone; and a package of which RDF did not say whether its files were analyzed now says that they were not. In 2.2 the artifacts and dependencies of files are lost as well. All packages, files, relationships, annotations, extracted licenses and the creation information are kept, each in its place. The document read from RDF itself never has snippets of its own.", "quantifier": "every RDF graph in which nodes used as files and packages have one role and different identifiers, both versions, every order of its statements and of maps, every sorting routine, every indentation, HTML escaping on or off", "why_tests_cant": "graphs are unlimited; no test of the project saves a document that was read from RDF, and the differences lie in what neither format alone shows", "anchors": ["rdf/reader.go:Read", "spdx/v2/v2_2/rdf/reader/parser.go:LoadFromGoRDFParser", "spdx/v2/v2_3/rdf/reader/parser.go:LoadFromGoRDFParser", "json/writer.go:Write", "json/reader.go:ReadInto", "yaml/writer.go:Write", "spdx/v2/common/identifier.go:ElementID.MarshalJSON", "spdx/v2/v2_3/file.go:File"]}
{"id": "C80", "title": "Saving a document from RDF as tag-value", "statement": "A document that is read from an RDF graph can be saved as tag-value, and what is saved is read by the reader that finds the version itself as a document of the version the graph states and with everything RDF gave, apart from the order of elements and from the file names in the ends of snippet ranges, which tag-value does not have. This holds if the graph gives what tag-value cannot leave out (names of files and packages, whether files were analyzed, both ends and the type of relationships, the category, type and locator of references, agents, license identifiers), if texts fit on their lines, names contain no white space and numbers in ranges are not zero. The lines must be shorter than 64 KiB. Although RDF may put the same package or file into the document several times, copies with the same identifier are equal, so the text does not depend on the sorting routine. (The identifier of the document gets a second SPDXRef- in the text, so the saved relationships do not refer to the saved document; shared packages are written several times; unsaid 'files analyzed' is written as false.)", "quantifier": "every RDF graph in which nodes used as files and packages have one role and different identifiers, both versions, every order of its statements and of maps, every sorting routine", "why_tests_cant": "graphs are unlimited and may be shared and cyclic; whether a file can be loaded after it was converted depends on every value in it", "anchors": ["rdf/reader.go:Read", "spdx/v2/v2_2/rdf/reader/parser.go:LoadFromGoRDFParser", "spdx/v2/v2_3/rdf/reader/parser.go:LoadFromGoRDFParser", "tagvalue/writer.go:Write", "tagvalue/reader.go:Read", "spdx/v2/v2_3/tagvalue/writer/save_document.go:RenderDocument"]}
{"id": "C81", "title": "A JSON, YAML or RDF document of one version read into a variable of another, and saved", "statement": "A JSON or YAML document of any version that is read into a variable of any other version (Read always does this for the newest) can be saved as JSON or YAML, and what is saved is read as what the original said, in the new version and as far as JSON has places for it. If the new version is newer, nothing is lost: what comes back is what the original said, but for the stated version, whether files-analyzed was present, and whether an empty verification code is given. The same holds for a document read from RDF into a variable of any version and saved as JSON or YAML, less what RDF documents always lose there, and saved as tag-value, apart from the file names in ranges. The document must give identifiers and agents in plain text, none of the things it points to may be entirely empty, and for tag-value its values must fit. (A category of an external reference with an underscore changes its spelling from 2.1 to a newer version; the dependencies of a file, which 2.2 documents have, are lost when a 2.3 document is saved as 2.2.)", "quantifier": "every savable JSON or YAML document and RDF graph, every pair of versions, every indentation, sorting routine, order of maps and of statements, and every way the copying library treats empty values", "why_tests_cant": "the tests convert single documents in memory; here every document of every version is read, converted, saved and read again", "anchors": ["json/reader.go:ReadInto", "yaml/reader.go:ReadInto", "rdf/reader.go:ReadInto", "convert/chain.go:Document", "json/writer.go:Write", "yaml/writer.go:Write", "tagvalue/writer.go:Write"]}
{"id": "C82", "title": "Programs that save a document about a directory, and programs that load and show a document", "statement": "The programs that build a document about a directory, or search it for short-form license identifiers, and save it as tag-value, never change a file but the output file; if the directory cannot be built they change none; at every moment the output file is as before or holds a beginning of the text; if nothing goes wrong it holds the whole text. The program that loads a tag-value file shows the creation information and, of each package that the document describes and in the order of the document, its first fifty files, numbered, with their licenses, or says that there are none or that they were not analyzed; if the document describes nothing it says so. From end to end: an ordinary directory that is built or searched, saved, loaded and shown gives exactly the files that are not ignored, with the licenses that their identifiers mention, in the order of their identifiers. The programs that load JSON, YAML and RDF show the name, license and namespace that the text gives, and version 2.3, whatever version the text states. The loaders show something exactly if the file can be opened and read as a document, otherwise name the file, never panic, and exit with status 0 in any case; only the RDF loader exits with another status after a failure. (With more than ten files the order shown is not that of the paths. The patterns by which the searching program means to leave out files have no effect, for any directory. On a full disk the document is said to be saved when it is not.)", "quantifier": "every directory, every document, every content of files, every failure of opening, reading, creating and writing, every moment at which a program is killed, every sorting routine", "why_tests_cant": "no test runs the programs, and directories, documents, failures and crash points are unlimited", "anchors": ["examples/1-load/example_load.go:main", "examples/3-build/example_build.go:main", "examples/4-search/example_search.go:main", "examples/7-rdfloader/exampleRDFLoader.go:main", "examples/10-jsonloader/example_json_loader.go:main", "examples/13-yamlloader/exampleYAMLLoader.go:main"]}
{"id": "C83", "title": "JSON files of any bytes", "statement": "A file of any bytes is taken for JSON exactly if the text is that it reads as in UTF-8 with U+FFFD for every byte that is part of no character; the document read is that of this text, as long as the identifiers and agents in it are UTF-8. A file in UTF-8 is therefore read as the text it is, and a document that is saved is read back from the bytes of the file. No file makes the reader panic; one that begins with a byte beyond ASCII (a byte order mark) is an error. A Go string of any bytes is written as UTF-8, and comes back from the file with such bytes replaced: as it was exactly if it was UTF-8. Element identifiers of any bytes are read as they stand; when they are written, the bytes are replaced.", "quantifier": "every sequence of bytes, as file and as string; both settings of HTML escaping; every version; every document for the round trip", "why_tests_cant": "there are unlimited sequences of bytes, and damage can stand anywhere in a file", "anchors": ["json/reader.go:ReadInto", "json/writer.go:Write", "spdx/v2/common/identifier.go:ElementID.UnmarshalJSON", "spdx/v2/common/identifier.go:ElementID.MarshalJSON", "json/marshal/json.go:JSON"]}
{"id": "C84", "title": "What the tools say of a document does not depend on how it is stored", "statement": "Converting a document between versions, reading a file of one version into a variable of another, and saving and loading a document as JSON or YAML change nothing that the tools say of it: whether it is valid, which packages it describes, the license report and the verification code of every package, and what the programs that report and compare licenses print. Saving and loading it as tag-value, or passing it on through any sequence of formats, may reorder packages and files; validity, described packages, verification codes and comparisons (if file names are distinct) stay as they were, and license reports stay the same up to the order of licenses of equally many files. The program that reports the licenses of all packages may say less, as it stops at the first package that was not analyzed. The same holds of documents that are read from RDF into a variable of any version and then saved and loaded as JSON, YAML or tag-value.", "quantifier": "every document that can be saved in the format (identifiers not empty, text without what the format has no way to write), every RDF graph that can be saved, every version and pair of versions, every sequence of formats, every other document it is compared with, every hash function and sorting routine", "why_tests_cant": "there are unlimited documents and sequences of formats, and the answers must agree for every other document compared with", "anchors": ["convert/chain.go:Document", "json/writer.go:Write", "json/reader.go:ReadInto", "yaml/writer.go:Write", "tagvalue/writer.go:Write", "tagvalue/reader.go:ReadInto", "spdxlib/documents.go:ValidateDocument", "spdxlib/described_elements.go:GetDescribedPackageIDs", "licensediff/licensediff.go:MakePairs", "reporter/reporter.go:Generate", "utils/verification.go:GetVerificationCode", "rdf/reader.go:ReadInto"]}
{"id": "C85", "title": "The JSON text of a document says that document and no other, and is always the same", "statement": "Whatever document is written as JSON, the text is that of an object in which no key occurs twice and no array has a null entry. The text states the version of the document and, read as JSON by its keys, says this document as far as JSON keeps it, and no other document. It does not depend on the sorting routine or on what JSON leaves out: two documents are written as the same text exactly if they agree in what JSON keeps, and a document that is written, read and written again gives the same bytes, as JSON with any options and as YAML.", "quantifier": "every document that JSON can represent (identifiers not empty, text without what the custom encoders cannot write) and every pair of them, every version, option and sorting routine; absence of repeated keys and independence of the sorter for every document at all", "why_tests_cant": "there are unlimited documents, and two different ones with the same text would have to be found; map iteration and sorting could change the text on some runs only", "anchors": ["json/writer.go:Write", "json/reader.go:ReadInto", "yaml/writer.go:Write", "spdx/v2/v2_2/package.go:Package.MarshalJSON", "spdx/v2/v2_3/package.go:PackageExternalReference.MarshalJSON"]}
{"id": "C86", "title": "Whether a list is missing or empty does not matter to what a JSON document says", "statement": "Whichever lists without elements in a document are empty rather than nil, the document is written as legal JSON text and the text is read as the same document. In the text, a list of checksums, creators or ranges without elements is [] if it is empty and null if it is nil; so is the list of licenses in a file in 2.1 and 2.2. A package of 2.2 names a verification code exactly if it has a value or excluded files or its list of excluded files is empty rather than nil.", "quantifier": "every document that JSON can represent, every choice of which of its lists without elements are empty, every version, option and sorting routine", "why_tests_cant": "the choices multiply over all packages, files and snippets; Go values that compare equal field by field in a test helper can be written differently", "anchors": ["json/writer.go:Write", "json/reader.go:ReadInto", "spdx/v2/v2_2/package.go:Package.MarshalJSON", "spdx/v2/v2_2/file.go:File", "spdx/v2/v2_1/package.go:Package"]}
{"id": "C87", "title": "Memory that is used again while reading JSON", "statement": "When a key of a JSON object occurs twice, the JSON library decodes both values into the same variable, and the elements of the later array into what the elements of the earlier one have left. Unless a key occurs twice, also in other letters, what is left in memory does not matter: a text is read as exactly what its object says, and a written document as it is kept. Whatever is left and whatever keys occur twice, reading does not panic, the last version says the version, and the files, packages, snippets, annotations, licenses and external references that are read are as many as the last value under their key has.", "quantifier": "every text, every content of memory beyond the length of a slice, every version, sorting routine and conversion; no panic for every text, sameness for every text without a repeated key", "why_tests_cant": "what is left in memory depends on the arrays read before, of any number and length", "anchors": ["json/reader.go:ReadInto", "spdx/v2/v2_3/document.go:Document.UnmarshalJSON", "spdx/v2/v2_3/package.go:Package.UnmarshalJSON", "spdx/v2/v2_3/file.go:File"]}
{"id": "C88", "title": "Agents given as JSON arrays or objects", "statement": "Creators, annotators, suppliers and originators take apart the text that stands in their place without asking whether it is a string. So an array or object there is no error if it contains a colon: its text as written, with all its blanks, up to the first colon is the kind and the rest the name. Without a colon it is rejected. Apart from these places, a text is read as exactly what its object says, and reading never panics.", "quantifier": "every JSON text, with any values in place of agents, every version, sorting routine and conversion", "why_tests_cant": "the text of an array or object is of any length and depth, and may stand at any agent of any package or annotation", "anchors": ["spdx/v2/common/creation_info.go:Creator.UnmarshalJSON", "spdx/v2/common/annotation.go:Annotator.UnmarshalJSON", "spdx/v2/common/package.go:Supplier.UnmarshalJSON", "spdx/v2/common/package.go:Originator.UnmarshalJSON", "json/reader.go:ReadInto"]}
{"id": "C89", "title": "Operations on texts", "statement": "Wherever values are trimmed, exactly the white space of Unicode at both ends goes, and none inside. A value is cut at the first separator. Splitting gives the pieces between separators, including empty ones, and joining puts them together again. Numbers are decimal digits with an optional sign that fit 64 bits, and are written without superfluous zeros. Names are compared in dictionary order, lengths are lengths of the UTF-8 text, and case is ignored for the ASCII letters and the four other characters that fold to them.", "quantifier": "every text, separator, character and number", "why_tests_cant": "texts are of any length and content; the edge cases are separators at the ends, empty pieces and characters outside ASCII", "anchors": ["tagvalue/reader/reader.go:tvReader.readNextLine", "spdx/v2/v2_3/tagvalue/reader/util.go:extractSubs", "spdx/v2/v2_3/rdf/reader/utils.go:getLastPartOfURI", "utils/filesystem.go:GetAllFilePaths"]}
{"id": "C90", "title": "Conversion of documents with missing entries", "statement": "Converting a document some of whose packages, files, licenses, relationships, annotations, reviews, references, artifacts or snippets are nil pointers never fails or crashes. An entry that is missing from a list is missing at the same place of the converted document; a missing snippet loses its entry; everything else is kept as in a document in which nothing is missing. To a newer version and back gives the document itself if no snippet was missing. A JSON text with null in its lists, read into a variable of another version, gives its document, converted.", "quantifier": "every document whose present parts have identifiers and are not empty, every place of a nil pointer, every pair of versions, both choices the library leaves open", "why_tests_cant": "nil pointers can be anywhere in lists of any length, in any combination, and the conversion goes through up to two copies by reflection", "anchors": ["convert/chain.go:Document", "spdx/v2/v2_3/document.go:Document", "spdx/v2/v2_3/package.go:Package", "spdx/v2/v2_3/file.go:File", "json/reader.go:ReadInto"]}
{"id": "C91", "title": "Conversion of documents with empty parts", "statement": "Converting any document to the next or previous version gives exactly the document without its empty parts and without what one of the versions has no field for, if the library that copies structs treats empty structs as nil: an empty package, file, license, relationship, annotation, review, reference or artifact leaves a nil pointer at its place in the list, an empty supplier, originator or creation info is gone, an empty snippet loses its entry. Between 2.1 and 2.3 this happens twice, so a part that becomes empty on the way is lost as well. If the library keeps empty structs, nothing is lost but what one of the versions has no field for.", "quantifier": "every document, with empty and missing parts anywhere, every pair of versions, both choices the library leaves open", "why_tests_cant": "whether a part counts as empty depends on all its fields and on the version, and the parts can be anywhere in lists of any length", "anchors": ["convert/chain.go:Document", "spdx/v2/v2_3/document.go:Document", "spdx/v2/v2_3/package.go:Package", "spdx/v2/v2_3/file.go:File", "spdx/v2/v2_2/document.go:Document", "spdx/v2/v2_1/document.go:Document"]}
{"id": "C92", "title": "What is left behind when a document with missing entries is written as tag-value", "statement": "When the tag-value writer panics because an entry of a document is a nil pointer, what has arrived at the io.Writer begins the text of every document that has something at the places of the missing entries, and contains the text of every part of the document before the first missing entry. If nothing is missing, all of the text arrives. What is left behind can be a legal tag-value text of a smaller document.", "quantifier": "every document with nil pointers at any places, every way to fill them, every part before the first one, every version, every order of equal keys, every io.Writer that keeps what it is given", "why_tests_cant": "nil pointers can be anywhere in lists of any length, and the writer sorts some of the lists before it prints", "anchors": ["tagvalue/writer.go:Write", "spdx/v2/v2_3/tagvalue/writer/save_document.go:RenderDocument", "spdx/v2/v2_3/tagvalue/writer/save_package.go:renderPackage", "spdx/v2/v2_3/tagvalue/writer/save_file.go:renderFile"]}
{"id": "C93", "title": "Which RDF graphs are read as valid documents", "statement": "A document that is read from an RDF graph passes ValidateDocument exactly if, for every relationship that the document and its snippets lead to, both the element it is stated of and the last element it is related to are named in the graph: as the document, as one of its packages, or as one of its files that no package contains. Otherwise validation reports an error. The answer does not depend on the version that is read into or on the order in which files are collected. So a relationship to a file that is inside a package makes the document invalid, unless a package has the same name, and so does one to NONE or NOASSERTION.", "quantifier": "every graph that is read, in which every node has one role, different elements have different names, a name is written in one way, and a relationship is stated of one element; every version and order", "why_tests_cant": "graphs have any number of nodes and statements, which may be cyclic, and validity depends on everything that can be reached", "anchors": ["rdf/reader.go:Read", "spdx/v2/v2_3/rdf/reader/parser.go:LoadFromGoRDFParser", "spdx/v2/v2_3/rdf/reader/parse_relationship.go:parseRelationship", "spdxlib/documents.go:ValidateDocument"]}
{"id": "C94", "title": "The described packages of documents that are read from RDF", "statement": "No relationship of a document that is read from RDF counts for GetDescribedPackageIDs: the types of relationships are read as they are written in RDF, and the function looks for other spellings. So it finds the described packages exactly if the document has one entry in its list of packages, which is then the result, and reports an error otherwise. If the document states that it describes a package, that package has two entries, and the result is always an error.", "quantifier": "every graph that is read in which every node has one role and different elements have different names, every version, every order, every sorting routine", "why_tests_cant": "graphs have any number of packages and relationships in any order; the claim is that none of them can give a result", "anchors": ["spdxlib/described_elements.go:GetDescribedPackageIDs", "spdx/v2/v2_3/rdf/reader/parse_relationship.go:getRelationshipTypeFromURI", "spdx/v2/v2_3/rdf/reader/parse_spdx_document.go:parseSpdxDocumentNode", "spdx/v2/v2_3/rdf/reader/parse_package.go:getPackageFromNode"]}
{"id": "C95", "title": "Which tag-value texts are read as valid documents", "statement": "A document that is read from tag-value passes ValidateDocument exactly if both ends of every Relationship line refer to the document, to the identifier of a package section, or to the identifier of a file section before the first package section; a reference to an element of another document counts by the identifier alone. Otherwise validation reports an error: a relationship to NONE, to NOASSERTION or to a file in a package (unless something else has its identifier) makes the document invalid.", "quantifier": "every list of tag-value pairs that is read, in which package sections have names and sections give their identifier once; every version", "why_tests_cant": "texts have any number of sections and relationships in any order, and validity depends on all of them", "anchors": ["spdxlib/documents.go:ValidateDocument", "tagvalue/reader.go:Read", "spdx/v2/v2_3/tagvalue/reader/parser.go:ParseTagValues", "spdx/v2/v2_3/tagvalue/reader/parse_relationship.go:parsePairForRelationship"]}
{"id": "C96", "title": "The described packages of tag-value texts", "statement": "For a tag-value text with two or more package sections, GetDescribedPackageIDs gives, in order, exactly the identifiers of elements that a Relationship line gives in the form 'SPDXRef-DOCUMENT DESCRIBES x' or 'x DESCRIBED_BY SPDXRef-DOCUMENT', where NONE and NOASSERTION count as the empty identifier, and an error if there are none. With one package section the result is its identifier, and with none an error.", "quantifier": "every list of tag-value pairs that is read, in which package sections have names and sections give their identifier once; every version, every sorting routine", "why_tests_cant": "texts have any number of sections and relationships in any order", "anchors": ["spdxlib/described_elements.go:GetDescribedPackageIDs", "spdxlib/relationships.go:FilterRelationships", "spdx/v2/v2_3/tagvalue/reader/parser.go:ParseTagValues", "spdx/v2/v2_3/tagvalue/reader/parse_relationship.go:parsePairForRelationship"]}
{"id": "C97", "title": "Which JSON documents are read as valid documents", "statement": "A document that is read from JSON passes ValidateDocument exactly if both ends of everything the object says to be related are the document (SPDXRef-DOCUMENT) or the identifier of an entry of packages or files: the entries of relationships and, from version 2.2 on, those of documentDescribes (related to the identifier of the document) and those of hasFiles of the packages (related to the package). Otherwise validation reports an error. So a document with another identifier than SPDXRef-DOCUMENT is invalid as soon as documentDescribes has an entry, and so is one with a relationship to NONE, NOASSERTION or a missing element of another document.", "quantifier": "every JSON object without repeated keys and null entries that states its version and is read, in which identifiers have no '>' and relationship types no '-'; every version", "why_tests_cant": "objects have any number of entries, the three keys interact (an entry said twice is read once, also in the opposite direction), and validity depends on all of them", "anchors": ["spdxlib/documents.go:ValidateDocument", "json/reader.go:ReadInto", "spdx/v2/v2_3/document.go:UnmarshalJSON", "spdx/v2/v2_2/document.go:UnmarshalJSON"]}
{"id": "C98", "title": "The described packages of JSON documents", "statement": "For a JSON document with two or more packages, GetDescribedPackageIDs gives, in order, exactly the elements that the object says the document describes: in a DESCRIBES or DESCRIBED_BY entry of relationships or, from version 2.2 on and if the document has the identifier SPDXRef-DOCUMENT, in documentDescribes; and an error if there are none. With one package the result is its identifier, and with none an error.", "quantifier": "every JSON object without repeated keys and null entries that states its version and is read, in which identifiers have no '>' and relationship types no '-'; every version, every sorting routine", "why_tests_cant": "objects have any number of entries in any order, and what is described may be said under several keys", "anchors": ["spdxlib/described_elements.go:GetDescribedPackageIDs", "spdxlib/relationships.go:FilterRelationships", "json/reader.go:ReadInto", "spdx/v2/v2_3/document.go:UnmarshalJSON", "spdx/v2/v2_2/document.go:UnmarshalJSON"]}
{"id": "C99", "title": "Validation and described packages of a document that is changed", "statement": "Every identifier that GetDescribedPackageIDs gives for a document that passes ValidateDocument is that of the document, one of its packages or one of its files. A document that passes validation passes it after packages and files are added or relationships removed, and two such documents put together pass it. Adding a relationship keeps it valid exactly if both ends are in the document. Removing a package or a file keeps it valid exactly if no relationship mentions its identifier or something else has that identifier. The described elements of two documents with two or more packages each, put together, are those of either.", "quantifier": "every list of packages, files and relationships without nil entries, every change of the kinds named, every sorting routine", "why_tests_cant": "documents are changed in any number of steps, and whether a step keeps them valid depends on all other elements", "anchors": ["spdxlib/documents.go:ValidateDocument", "spdxlib/described_elements.go:GetDescribedPackageIDs", "spdxlib/relationships.go:FilterRelationships"]}
