{
 "claims": [
  {
   "property": "C01",
   "status": "proved",
   "theorems": [
    "Verif.C01_fields_round_trip"
   ],
   "note": ""
  },
  {
   "property": "C02",
   "status": "proved",
   "theorems": [
    "Verif.C02_blank_and_comment_lines",
    "Verif.C02_indentation"
   ],
   "note": ""
  },
  {
   "property": "C03",
   "status": "proved",
   "theorems": [
    "Verif.C03_line_errors",
    "Verif.C03_text_errors"
   ],
   "note": ""
  },
  {
   "property": "C04",
   "status": "proved",
   "theorems": [
    "Verif.C04_one_pair_per_field",
    "Verif.C04_representable_is_safe",
    "Verif.C04_plain_field_iff",
    "Verif.C04_text_field_iff"
   ],
   "note": "The claim for every string is false (C04_injection_false, C04_plain_injection_false, C04_unreadable_false); the statement gives the exact condition."
  },
  {
   "property": "C05",
   "status": "proved",
   "theorems": [
    "Verif.C05_parse_never_panics",
    "Verif.C05_read_and_parse_never_panics",
    "Verif.C05_no_document_iff_empty"
   ],
   "note": "all three versions; panics are explicit results of the model"
  },
  {
   "property": "C06",
   "status": "proved",
   "theorems": [
    "Verif.C06_identifiers_present"
   ],
   "note": ""
  },
  {
   "property": "C07",
   "status": "proved",
   "theorems": [
    "Verif.C07_checksum_algorithms",
    "Verif.C07_unknown_algorithm_rejected"
   ],
   "note": "C07_externalDocumentRef_unchecked shows the limit: the checksum of an external document reference is not checked"
  },
  {
   "property": "C08",
   "status": "proved",
   "theorems": [
    "Verif.C08_agent_kinds"
   ],
   "note": ""
  },
  {
   "property": "C09",
   "status": "proved",
   "theorems": [
    "Verif.C09_relationship_ends"
   ],
   "note": ""
  },
  {
   "property": "C10",
   "status": "proved",
   "theorems": [
    "Verif.C10_sections_do_not_reopen",
    "Verif.C10_unknown_tag_rejected"
   ],
   "note": ""
  },
  {
   "property": "C11",
   "status": "proved",
   "theorems": [
    "Verif.C11_objects_follow_sections"
   ],
   "note": "The two conditions of the property are necessary: C11_unnamed_package_false, C11_repeated_id_false"
  },
  {
   "property": "C12",
   "status": "proved",
   "theorems": [
    "Verif.C12_write_then_read",
    "Verif.C12_representable_is_written",
    "Verif.C12_write_is_stable"
   ],
   "note": "Each condition of Representable that looks odd has a C12_..._false witness."
  },
  {
   "property": "C13",
   "status": "proved",
   "theorems": [
    "Verif.C13_output_independent_of_order"
   ],
   "note": "Distinct identifiers are necessary: C13_equal_ids_false"
  },
  {
   "property": "C14",
   "status": "proved",
   "theorems": [
    "Verif.C14_fails_iff_no_creation_info",
    "Verif.C14_only_reorders"
   ],
   "note": ""
  },
  {
   "property": "C15",
   "status": "proved",
   "theorems": [
    "Verif.C15_elementId_round_trip",
    "Verif.C15_elementId_encoding",
    "Verif.C15_elementId_decoding"
   ],
   "note": ""
  },
  {
   "property": "C16",
   "status": "proved",
   "theorems": [
    "Verif.C16_documentId_round_trip",
    "Verif.C16_documentId_encoding",
    "Verif.C16_documentId_decoding"
   ],
   "note": ""
  },
  {
   "property": "C17",
   "status": "proved",
   "theorems": [
    "Verif.C17_decoding",
    "Verif.C17_round_trip",
    "Verif.C17_not_encodable"
   ],
   "note": ""
  },
  {
   "property": "C18",
   "status": "proved",
   "theorems": [
    "Verif.C18_element_extract",
    "Verif.C18_element_round_trip",
    "Verif.C18_docElement_extract",
    "Verif.C18_docElement_round_trip",
    "Verif.C18_special_round_trip"
   ],
   "note": ""
  },
  {
   "property": "C19",
   "status": "proved",
   "theorems": [
    "Verif.C19_supplier_round_trip",
    "Verif.C19_originator_round_trip",
    "Verif.C19_not_encodable",
    "Verif.C19_supplier_decoding",
    "Verif.C19_originator_decoding"
   ],
   "note": "NOASSERTION loses its kind (C19_noassertion_kind_false), a quote is lost (C19_quote_false), and suppliers and originators are not treated alike (C19_not_alike_false)."
  },
  {
   "property": "C20",
   "status": "proved",
   "theorems": [
    "Verif.C20_creator_round_trip",
    "Verif.C20_annotator_round_trip",
    "Verif.C20_decoding",
    "Verif.C20_no_colon",
    "Verif.C20_no_name"
   ],
   "note": ""
  },
  {
   "property": "C21",
   "status": "proved",
   "theorems": [
    "Verif.C21_formula",
    "Verif.C21_nil_file",
    "Verif.C21_order",
    "Verif.C21_only_digests",
    "Verif.C21_excluded_file",
    "Verif.C21_code_determines_digests"
   ],
   "note": "SHA-1 is a parameter. C21_boundary_false: the concatenation has no separators."
  },
  {
   "property": "C22",
   "status": "proved",
   "theorems": [
    "Verif.C22_ignored_iff",
    "Verif.C22_monotone",
    "Verif.C22_no_patterns"
   ],
   "note": "C22_partial_name and C22_relative_path show the surprising cases."
  },
  {
   "property": "C23",
   "status": "proved",
   "theorems": [
    "Verif.C23_listing",
    "Verif.C23_no_repetition",
    "Verif.C23_error",
    "Verif.C23_root_file"
   ],
   "note": "The order is name by name, not that of the texts (C23_text_order_false)."
  },
  {
   "property": "C24",
   "status": "proved",
   "theorems": [
    "Verif.C24_valid_iff",
    "Verif.C24_order",
    "Verif.C24_nil"
   ],
   "note": "References to NONE/NOASSERTION, to other documents and to files inside packages are treated wrongly: C24_none_rejected_false, C24_other_document_false, C24_package_file_false."
  },
  {
   "property": "C25",
   "status": "proved",
   "theorems": [
    "Verif.C25_described",
    "Verif.C25_no_repetition",
    "Verif.C25_single"
   ],
   "note": "The identifiers are not verified although the code's comment says so (C25_unverified_false)."
  },
  {
   "property": "C26",
   "status": "proved",
   "theorems": [
    "Verif.C26_filter",
    "Verif.C26_succeeds",
    "Verif.C26_pure"
   ],
   "note": ""
  },
  {
   "property": "C27",
   "status": "proved",
   "theorems": [
    "Verif.C27_pairs",
    "Verif.C27_distinct"
   ],
   "note": "Of several files of one name the last counts (C27_same_name_false)."
  },
  {
   "property": "C28",
   "status": "proved",
   "theorems": [
    "Verif.C28_groups",
    "Verif.C28_exactly_one",
    "Verif.C28_order",
    "Verif.C28_presence"
   ],
   "note": "Without a concluded license files are misclassified (C28_empty_license_false)."
  },
  {
   "property": "C29",
   "status": "proved",
   "theorems": [
    "Verif.C29_report",
    "Verif.C29_not_analyzed",
    "Verif.C29_printed",
    "Verif.C29_ink",
    "Verif.C29_ties_false",
    "Verif.C29_forged_false"
   ],
   "note": "C29_report is about the text given to text/tabwriter, C29_printed and C29_ink about what that prints (Model/TabWriter, from its documentation and source). The order of ties is open (C29_ties_false); a license with line ends can look like several rows (C29_forged_false)."
  },
  {
   "property": "C30",
   "status": "proved",
   "theorems": [
    "Verif.C30_individual",
    "Verif.C30_no_breaks"
   ],
   "note": "Repeated names are listed repeatedly (C30_repetition_false), tabs do not separate (C30_tab_false)."
  },
  {
   "property": "C31",
   "status": "proved",
   "theorems": [
    "Verif.C31_conjunction",
    "Verif.C31_element",
    "Verif.C31_license",
    "Verif.C31_unambiguous",
    "Verif.C31_only_meaning"
   ],
   "note": "Operators in lower case or between tabs are not protected (C31_other_operators_false)."
  },
  {
   "property": "C32",
   "status": "proved",
   "theorems": [
    "Verif.C32_search",
    "Verif.C32_characters",
    "Verif.C32_all_lines"
   ],
   "note": "Witnesses of surprising identifiers: C32_comment_end_false, C32_document_ref_false."
  },
  {
   "property": "C33",
   "status": "proved",
   "theorems": [
    "Verif.C33_package",
    "Verif.C33_distinct",
    "Verif.C33_error"
   ],
   "note": "The root is a directory with a clean absolute path. SHA-1 is a parameter, the digests of files are part of the disk."
  },
  {
   "property": "C34",
   "status": "proved",
   "theorems": [
    "Verif.C34_valid",
    "Verif.C34_error"
   ],
   "note": "The namespace contains the printed structure of the verification code (C34_namespace_false); an unknown creator type is kept (C34_creator_type_false)."
  },
  {
   "property": "C35",
   "status": "proved",
   "theorems": [
    "Verif.C35_load",
    "Verif.C35_hasFiles",
    "Verif.C35_again"
   ],
   "note": "A relationship type with a hyphen can hide an entry (C35_false). Duplicate keys in the JSON object are excluded."
  },
  {
   "property": "C36",
   "status": "proved",
   "theorems": [
    "Verif.C36_default"
   ],
   "note": ""
  },
  {
   "property": "C37",
   "status": "proved",
   "theorems": [
    "Verif.C37_load",
    "Verif.C37_round_trip",
    "Verif.C37_written"
   ],
   "note": "Categories with underscores do not survive (C37_underscore_false)."
  },
  {
   "property": "C38",
   "status": "proved",
   "theorems": [
    "Verif.C38_dispatch",
    "Verif.C38_pointer",
    "Verif.C38_never_panics",
    "Verif.C38_version",
    "Verif.C38_json"
   ],
   "note": "Two stated versions: the first decides on the rules, the last is carried (C38_two_versions_false, C38_json_two_keys_false). Conversion between versions by go-struct-converter is a parameter, assumed total."
  },
  {
   "property": "C39",
   "status": "proved",
   "theorems": [
    "Verif.C39_limit",
    "Verif.C39_ascii"
   ],
   "note": "Multi-byte text can panic (C39_multibyte_false)."
  },
  {
   "property": "C40",
   "status": "proved",
   "theorems": [
    "Verif.C40_reading_ends",
    "Verif.C40_license_ends",
    "Verif.C40_license",
    "Verif.C40_unique",
    "Verif.C40_cycles"
   ],
   "note": "The model limits the depth of the calls; C40_reading_ends shows that the limit is never met."
  },
  {
   "property": "C41",
   "status": "proved",
   "theorems": [
    "Verif.C41_meaning",
    "Verif.C41_distinct",
    "Verif.C41_graph",
    "Verif.C41_list_names"
   ],
   "note": "The unrestricted statement is false: C41_nesting_false, C41_operators_false, C41_empty_name_false."
  },
  {
   "property": "C42",
   "status": "proved",
   "theorems": [
    "Verif.C42_no_panic",
    "Verif.C42_read"
   ],
   "note": "The unrestricted statement is false: C42_untyped_root_false, C42_two_roles_false."
  },
  {
   "property": "C43",
   "status": "proved",
   "theorems": [
    "Verif.C43_files",
    "Verif.C43_packages",
    "Verif.C43_package_files",
    "Verif.C43_described_twice",
    "Verif.C43_package_id",
    "Verif.C43_file_id"
   ],
   "note": "'Each package once' and 'each statement once' are false: C43_listed_once_false, C43_read_once_false."
  },
  {
   "property": "C44",
   "status": "proved",
   "theorems": [
    "Verif.C44_checksum",
    "Verif.C44_byte_range",
    "Verif.C44_line_range",
    "Verif.C44_external_document_ref",
    "Verif.C44_verification_code",
    "Verif.C44_external_ref",
    "Verif.C44_supplier",
    "Verif.C44_originator",
    "Verif.C44_relationship",
    "Verif.C44_number"
   ],
   "note": "C44_two_exclusions_false, C44_bracket_exclusion_false, C44_locator_space_false show the conditions are needed."
  },
  {
   "property": "C45",
   "status": "proved",
   "theorems": [
    "Verif.C45_licenses",
    "Verif.C45_error",
    "Verif.C45_valid",
    "Verif.C45_meaning"
   ],
   "note": "Patterns of the search are matched against names that begin with ./, so a pattern from the root has no effect (C45_root_pattern_false); a tag without identifier gives an incomplete expression (C45_empty_identifier_false)."
  },
  {
   "property": "C46",
   "status": "proved",
   "theorems": [
    "Verif.C46_built",
    "Verif.C46_ids"
   ],
   "note": "The conditions are needed: C46_space_in_name_false, C46_trailing_space_false."
  },
  {
   "property": "C47",
   "status": "proved",
   "theorems": [
    "Verif.C47_round_trip",
    "Verif.C47_unchanged",
    "Verif.C47_spellings"
   ],
   "note": "Witnesses: C47_ampersand_false (HTML escaping corrupts suppliers), C47_review_false. JSON is modelled at the level of values; the text of strings is modelled, other text is not."
  },
  {
   "property": "C48",
   "status": "proved",
   "theorems": [
    "Verif.C48_document"
   ],
   "note": ""
  },
  {
   "property": "C49",
   "status": "proved",
   "theorems": [
    "Verif.C49_one_document",
    "Verif.C49_document"
   ],
   "note": "Hypotheses: no node is used both as a file or package and as something else; different files (packages) have different identifiers. Witness: C49_identifier_false."
  },
  {
   "property": "C50",
   "status": "proved",
   "theorems": [
    "Verif.C50_files",
    "Verif.C50_one_node",
    "Verif.C50_same_file"
   ],
   "note": "Hypotheses: no node is used both as a file or package and as something else; different files (packages) have different identifiers. How often a node is read is not specified (C43_read_once_false)."
  },
  {
   "property": "C51",
   "status": "proved",
   "theorems": [
    "Verif.C51_packages",
    "Verif.C51_one_node",
    "Verif.C51_same_package"
   ],
   "note": "Hypotheses: no node is used both as a file or package and as something else; different files (packages) have different identifiers. Witness: C51_purpose_false."
  },
  {
   "property": "C52",
   "status": "proved",
   "theorems": [
    "Verif.C52_relationships",
    "Verif.C52_annotations",
    "Verif.C52_all_relationships",
    "Verif.C52_all_annotations",
    "Verif.C52_dependencies",
    "Verif.C52_described_not_found",
    "Verif.C52_described_never_found"
   ],
   "note": "Hypotheses: no node is used both as a file or package and as something else; different files (packages) have different identifiers. Completeness also assumes that nodes are told apart by their names and a relationship node belongs to one statement. Witness: C52_annotation_subject_false."
  },
  {
   "property": "C53",
   "status": "proved",
   "theorems": [
    "Verif.C53_snippets",
    "Verif.C53_all_snippets",
    "Verif.C53_one_snippet"
   ],
   "note": "Hypotheses: no node is used both as a file or package and as something else; different files (packages) have different identifiers. Witness: C53_ranges_false."
  },
  {
   "property": "C54",
   "status": "proved",
   "theorems": [
    "Verif.C54_accepted",
    "Verif.C54_only_legal",
    "Verif.C54_read",
    "Verif.C54_properties",
    "Verif.C54_classes",
    "Verif.C54_relationships",
    "Verif.C54_terms_sample",
    "Verif.C54_license_list",
    "Verif.C54_licenses",
    "Verif.C54_licenses_sample",
    "Verif.C54_empty_name_false"
   ],
   "note": "Hypotheses as for C52, and: nodes used as licenses are not used as relationships (only for acceptance); names of the files of snippets have no surrounding space (only for rejection). The theorems are about reading up to the conversion between versions. C54_properties, C54_classes, C54_relationships: the vocabulary of the reader, against Spec/RdfTerms. C54_license_list, C54_licenses: the names of licenses, against Spec/LicenseNames; C54_empty_name_false: the list has an empty name in it."
  },
  {
   "property": "C55",
   "status": "proved",
   "theorems": [
    "Verif.C55_sections",
    "Verif.C55_complete",
    "Verif.C55_sample",
    "Verif.C55_unnamed_false"
   ],
   "note": "C55_unnamed_false shows that packages must have names."
  },
  {
   "property": "C56",
   "status": "proved",
   "theorems": [
    "Verif.C56_legal",
    "Verif.C56_text",
    "Verif.C56_unknown_tag",
    "Verif.C56_snippets_follow_files",
    "Verif.C56_sample",
    "Verif.C56_unnamed_false",
    "Verif.C56_snippet_place_false"
   ],
   "note": "C56_unnamed_false shows that packages must have names. C56_snippet_place_false: a snippet behind a package that has no files is an error, so that the repository's own sample SPDXTagExample-v2.2.spdx is not read."
  },
  {
   "property": "C57",
   "status": "proved",
   "theorems": [
    "Verif.C57_keys",
    "Verif.C57_document",
    "Verif.C57_unique",
    "Verif.C57_read",
    "Verif.C57_same_version",
    "Verif.C57_sample",
    "Verif.C57_duplicate_false",
    "Verif.C57_escape_false"
   ],
   "note": "C57_duplicate_false shows that repeated keys are merged or overridden; C57_escape_false that escapes in identifiers are kept as written."
  },
  {
   "property": "C58",
   "status": "proved",
   "theorems": [
    "Verif.C58_grammar",
    "Verif.C58_unambiguous",
    "Verif.C58_only_json",
    "Verif.C58_layout",
    "Verif.C58_says",
    "Verif.C58_objects",
    "Verif.C58_written",
    "Verif.C58_round_trip",
    "Verif.C58_unchanged",
    "Verif.C58_sample",
    "Verif.C58_indent_false"
   ],
   "note": "Text with an array or object in place of an agent is left open (parameter odd). C58_indent_false: an indentation that is not blank is accepted by the writer but what it writes cannot be read."
  },
  {
   "property": "C59",
   "status": "proved",
   "theorems": [
    "Verif.C59_never_panics",
    "Verif.C59_order",
    "Verif.C59_text",
    "Verif.C59_sample",
    "Verif.C59_twice_false",
    "Verif.C59_agent_false"
   ],
   "note": "C59_twice_false and C59_agent_false: with a key twice, or an object in place of a supplier, the order matters. Null entries of arrays: outside the theorem on order."
  },
  {
   "property": "C60",
   "status": "proved",
   "theorems": [
    "Verif.C60_never_panics",
    "Verif.C60_says",
    "Verif.C60_same_as_json",
    "Verif.C60_round_trip",
    "Verif.C60_sample"
   ],
   "note": "sigs.k8s.io/yaml is a parameter; C60_sample instantiates it with JSON as YAML."
  },
  {
   "property": "C61",
   "status": "proved",
   "theorems": [
    "Verif.C61_pairs",
    "Verif.C61_unambiguous",
    "Verif.C61_one",
    "Verif.C61_document",
    "Verif.C61_text",
    "Verif.C61_sample"
   ],
   "note": "Together with C48, C55 and C56; C55_unnamed_false and C56_unnamed_false show why package names must not be empty."
  },
  {
   "property": "C62",
   "status": "proved",
   "theorems": [
    "Verif.C62_converted",
    "Verif.C62_there_and_back",
    "Verif.C62_total",
    "Verif.C62_read_tagvalue",
    "Verif.C62_read_json",
    "Verif.C62_sample",
    "Verif.C62_empty_false"
   ],
   "note": "go-struct-converter is not part of the repository: its copying by field names is modelled from its documentation, with a parameter for empty structs. C62_total needs nothing of the document. C62_empty_false shows why nothing may be empty for the other theorems."
  },
  {
   "property": "C63",
   "status": "proved",
   "theorems": [
    "Verif.C63_pieces",
    "Verif.C63_reader_fails",
    "Verif.C63_json_yaml_writer",
    "Verif.C63_tagvalue_writer",
    "Verif.C63_sample",
    "Verif.C63_report",
    "Verif.C63_report_sample"
   ],
   "note": "C63_unreported_false and C63_hole_false: the tag-value writer ignores errors, so a full disk gives nil and a lost line in the middle gives nil. C63_report_unreported_false: so does the license report. What the tab writer tries to write again after a failure is left open (a parameter)."
  },
  {
   "property": "C64",
   "status": "proved",
   "theorems": [
    "Verif.C64_text_says",
    "Verif.C64_same_text_iff"
   ],
   "note": "Representable (Spec/Representable.lean) is the condition of C12, where the documents it rules out are listed with what happens to them."
  },
  {
   "property": "C65",
   "status": "proved",
   "theorems": [
    "Verif.C65_tagvalue",
    "Verif.C65_tagvalue_to_json",
    "Verif.C65_pass_along",
    "Verif.C65_sample"
   ],
   "note": "C65_snippets_false and C65_document_snippets_false: snippets are lost in both directions, since tag-value keeps them in files and JSON in the document."
  },
  {
   "property": "C66",
   "status": "proved",
   "theorems": [
    "Verif.C66_read",
    "Verif.C66_plain",
    "Verif.C66_json_safe",
    "Verif.C66_relationships",
    "Verif.C66_write",
    "Verif.C66_write_plain",
    "Verif.C66_whole",
    "Verif.C66_validate",
    "Verif.C66_read_then_write",
    "Verif.C66_safe",
    "Verif.C66_round_trip"
   ],
   "note": "C66_crash_false: not every document that the JSON reader returns can be written as tag-value text or validated; \"packages\": [null] makes both panic."
  },
  {
   "property": "C67",
   "status": "proved",
   "theorems": [
    "Verif.C67_representable",
    "Verif.C67_load_save",
    "Verif.C67_saved_again",
    "Verif.C67_says_the_same",
    "Verif.C67_read_write",
    "Verif.C67_plain_text",
    "Verif.C67_sample",
    "Verif.C67_spaces_false",
    "Verif.C67_lines_false",
    "Verif.C67_nested_false",
    "Verif.C67_unnamed_false",
    "Verif.C67_empty_false",
    "Verif.C67_algorithm_false",
    "Verif.C67_snippet_false",
    "Verif.C67_creation_false",
    "Verif.C67_unanalyzed_false"
   ],
   "note": "The conditions are read off the pairs of the text (Spec/Savable.lean). Those on white space inside words and on agents and checksums without a name are sufficient, not all necessary; the others are each shown to be needed by a _false theorem. As in C12 the lines of the saved text must fit the scanner's buffer."
  },
  {
   "property": "C68",
   "status": "proved",
   "theorems": [
    "Verif.C68_carried",
    "Verif.C68_load_save",
    "Verif.C68_saved_again",
    "Verif.C68_yaml",
    "Verif.C68_flagged",
    "Verif.C68_sample",
    "Verif.C68_no_id_false",
    "Verif.C68_escape_false",
    "Verif.C68_twice_false",
    "Verif.C68_document_ref_false",
    "Verif.C68_supplier_false",
    "Verif.C68_creator_false",
    "Verif.C68_flag_false"
   ],
   "note": "The conditions are read off the JSON value (Spec/JsonSavable.lean). As in C57 no object has a key twice and no array an entry null; as in C60 the YAML library is assumed to keep the value."
  },
  {
   "property": "C69",
   "status": "proved",
   "theorems": [
    "Verif.C69_exact",
    "Verif.C69_nothing_else",
    "Verif.C69_no_other_package",
    "Verif.C69_sample",
    "Verif.C69_all_elements_false"
   ],
   "note": "What the document leads to is the inductive relation Leads of Spec/RdfLegal.lean; HasExactly (Spec/RdfExact.lean) says that the document has exactly that. Snippets are in C53."
  },
  {
   "property": "C70",
   "status": "proved",
   "theorems": [
    "Verif.C70_same",
    "Verif.C70_loaded",
    "Verif.C70_read",
    "Verif.C70_error",
    "Verif.C70_sample",
    "Verif.C70_equal_false",
    "Verif.C70_ranges_false",
    "Verif.C70_once_false",
    "Verif.C70_repeated_false"
   ],
   "note": "SameDocument (Spec/RdfOrder.lean) compares every field of the documents; SaidOnce is the condition that nothing is said twice. The _false theorems show what does depend on the order."
  },
  {
   "property": "C71",
   "status": "proved",
   "theorems": [
    "Verif.C71_read",
    "Verif.C71_text_stays_text",
    "Verif.C71_no_panic",
    "Verif.C71_nothing_invented",
    "Verif.C71_field_written",
    "Verif.C71_write",
    "Verif.C71_round_trip",
    "Verif.C71_encoding",
    "Verif.C71_search",
    "Verif.C71_trim",
    "Verif.C71_split",
    "Verif.C71_order",
    "Verif.C71_decode_first",
    "Verif.C71_decode_last",
    "Verif.C71_read_sample",
    "Verif.C71_latin1_sample",
    "Verif.C71_round_trip_sample",
    "Verif.C71_no_break_space_false"
   ],
   "note": "The reader and the printing of a field are modelled a second time, on bytes (Model/Bytes.lean), with utf8.DecodeRune and DecodeLastRune; the functions of package strings are as documented. The two models are proved to agree on UTF-8, which justifies the use of characters in the other properties."
  },
  {
   "property": "C72",
   "status": "proved",
   "theorems": [
    "Verif.C72_text",
    "Verif.C72_others_kept",
    "Verif.C72_history",
    "Verif.C72_parallel_text",
    "Verif.C72_parallel_finish",
    "Verif.C72_parallel_kept",
    "Verif.C72_history_sample",
    "Verif.C72_parallel_sample",
    "Verif.C72_same_document_false",
    "Verif.C72_overlap_false"
   ],
   "note": "The writer is modelled a second time, as a program that reads and writes single cells of arrays (Model/Sharing.lean); sort.Slice is any program that keeps its contract when run alone, and sliceSorter shows that there is one. Memory is sequentially consistent."
  },
  {
   "property": "C73",
   "status": "proved",
   "theorems": [
    "Verif.C73_reads",
    "Verif.C73_search",
    "Verif.C73_found",
    "Verif.C73_disk",
    "Verif.C73_document",
    "Verif.C73_licenses",
    "Verif.C73_sample"
   ],
   "note": "Model/SearchBytes.lean has the search on bytes (bufio.Scanner, strings.SplitN, strings.TrimSpace, regexp on bytes); the digests are functions of the bytes of a file."
  },
  {
   "property": "C74",
   "status": "proved",
   "theorems": [
    "Verif.C74_document",
    "Verif.C74_error",
    "Verif.C74_same",
    "Verif.C74_change",
    "Verif.C74_add",
    "Verif.C74_namespace",
    "Verif.C74_licenses_same",
    "Verif.C74_renamed_false"
   ],
   "note": "wholeDocument (Spec/Built.lean) writes out every field of a built document. SHA-1, SHA-256 and MD5 are parameters; that no collision is met is a hypothesis of C74_namespace only."
  },
  {
   "property": "C75",
   "status": "proved",
   "theorems": [
    "Verif.C75_diff",
    "Verif.C75_diff_error",
    "Verif.C75_diff_order",
    "Verif.C75_section_unique",
    "Verif.C75_sum",
    "Verif.C75_presence",
    "Verif.C75_report",
    "Verif.C75_report_all",
    "Verif.C75_second_false",
    "Verif.C75_stops_false"
   ],
   "note": "From the point where the documents have been read. The text of error messages is not modelled. C75_second_false and C75_stops_false are two surprising behaviours."
  },
  {
   "property": "C76",
   "status": "proved",
   "theorems": [
    "Verif.C76_convert",
    "Verif.C76_not_pointer",
    "Verif.C76_nil",
    "Verif.C76_deep",
    "Verif.C76_interface",
    "Verif.C76_read",
    "Verif.C76_read_deep",
    "Verif.C76_write",
    "Verif.C76_write_other",
    "Verif.C76_write_panics_false",
    "Verif.C76_write_boxed_false",
    "Verif.C76_read_json",
    "Verif.C76_read_yaml",
    "Verif.C76_read_rdf",
    "Verif.C76_formats_not_pointer",
    "Verif.C76_formats_deep",
    "Verif.C76_formats_interface",
    "Verif.C76_write_formats",
    "Verif.C76_write_nothing",
    "Verif.C76_formats_sample"
   ],
   "note": "reflect is modelled on documents, pointers, nil pointers, variables of interface type and other values. What go-struct-converter does with anything but a document and a pointer to a document is a parameter. Describe's text is a parameter."
  },
  {
   "property": "C77",
   "status": "proved",
   "theorems": [
    "Verif.C77_usage",
    "Verif.C77_nothing_else",
    "Verif.C77_unread",
    "Verif.C77_output",
    "Verif.C77_works",
    "Verif.C77_any_beginning",
    "Verif.C77_saved",
    "Verif.C77_json_cut",
    "Verif.C77_json_never_wrong",
    "Verif.C77_chain",
    "Verif.C77_sample",
    "Verif.C77_sample_full",
    "Verif.C77_in_place_false",
    "Verif.C77_reported_false",
    "Verif.C77_cut_tagvalue_false",
    "Verif.C77_emptied_false"
   ],
   "note": "Files are texts by name, changed by nobody else. A run is the list of its moments, one for every character that reaches the output file."
  },
  {
   "property": "C78",
   "status": "proved",
   "theorems": [
    "Verif.C78_saved_as",
    "Verif.C78_text",
    "Verif.C78_upgrade",
    "Verif.C78_way",
    "Verif.C78_sample",
    "Verif.C78_algorithm_false",
    "Verif.C78_none_false",
    "Verif.C78_artifact_false",
    "Verif.C78_older_false"
   ],
   "note": "Combines the model of the conversion (C62) with the writer and the reader; the two ways the copying library may treat empty structs are a parameter."
  },
  {
   "property": "C79",
   "status": "proved",
   "theorems": [
    "Verif.C79_json",
    "Verif.C79_yaml",
    "Verif.C79_elements",
    "Verif.C79_sample",
    "Verif.C79_snippets_false",
    "Verif.C79_identifier_false",
    "Verif.C79_analyzed_false"
   ],
   "note": "Conditions are on the statements of the graph (`SavableGraph`). Combines C49-C52 with C58 and C60; the YAML library is a parameter as in C60."
  },
  {
   "property": "C80",
   "status": "proved",
   "theorems": [
    "Verif.C80_text",
    "Verif.C80_one_text",
    "Verif.C80_sample",
    "Verif.C80_identifier_false",
    "Verif.C80_once_false",
    "Verif.C80_analyzed_false",
    "Verif.C80_ranges_false"
   ],
   "note": "Conditions are on the statements of the graph (`TextGraph`). Combines C49-C53 with C12."
  },
  {
   "property": "C81",
   "status": "proved",
   "theorems": [
    "Verif.C81_json",
    "Verif.C81_yaml",
    "Verif.C81_newer",
    "Verif.C81_rdf_json",
    "Verif.C81_rdf_yaml",
    "Verif.C81_rdf_text",
    "Verif.C81_sample",
    "Verif.C81_rdf_sample",
    "Verif.C81_category_false",
    "Verif.C81_older_false"
   ],
   "note": "Composes C57, C58, C60, C62, C79 and C80. The YAML library is assumed to keep the value."
  },
  {
   "property": "C82",
   "status": "proved",
   "theorems": [
    "Verif.C82_usage",
    "Verif.C82_unbuilt",
    "Verif.C82_nothing_else",
    "Verif.C82_output",
    "Verif.C82_works",
    "Verif.C82_shows",
    "Verif.C82_shows_none",
    "Verif.C82_build_then_load",
    "Verif.C82_search_then_load",
    "Verif.C82_unsearched",
    "Verif.C82_attributes_json",
    "Verif.C82_attributes_yaml",
    "Verif.C82_attributes_rdf",
    "Verif.C82_ends",
    "Verif.C82_status_rdf",
    "Verif.C82_sample",
    "Verif.C82_sample_json",
    "Verif.C82_path_order_false",
    "Verif.C82_left_out_false",
    "Verif.C82_reported_false",
    "Verif.C82_ends_rdf"
   ],
   "note": "Composes C12, C25, C45, C46, C62, C63, C74 and C77. What %#v prints of the creation information and the texts of errors are given."
  },
  {
   "property": "C83",
   "status": "proved",
   "theorems": [
    "Verif.C83_repair",
    "Verif.C83_scan",
    "Verif.C83_string",
    "Verif.C83_read",
    "Verif.C83_read_text",
    "Verif.C83_not_json",
    "Verif.C83_never_panics",
    "Verif.C83_first_byte",
    "Verif.C83_round_trip",
    "Verif.C83_string_round_trip",
    "Verif.C83_string_same",
    "Verif.C83_writes_text",
    "Verif.C83_write_text",
    "Verif.C83_id_kept",
    "Verif.C83_id_written",
    "Verif.C83_sample",
    "Verif.C83_name_kept_false",
    "Verif.C83_bom_false",
    "Verif.C83_id_round_trip_false",
    "Verif.C83_id_refused",
    "Verif.C83_open"
   ],
   "note": "encoding/json is not in /repo: its scanner, unquoting and quoting are modelled on bytes from its source, as trusted reading. What becomes of a file the identifiers or agents of which are not UTF-8 is left open at the level of documents (a parameter), and proved for element identifiers."
  },
  {
   "property": "C84",
   "status": "proved",
   "theorems": [
    "Verif.C84_version",
    "Verif.C84_read_tagvalue",
    "Verif.C84_read_json",
    "Verif.C84_json",
    "Verif.C84_yaml",
    "Verif.C84_tagvalue",
    "Verif.C84_tagvalue_to_json",
    "Verif.C84_pass_along",
    "Verif.C84_rdf_json",
    "Verif.C84_rdf_yaml",
    "Verif.C84_rdf_text",
    "Verif.C84_sample",
    "Verif.C84_rdf_sample",
    "Verif.C84_report_false",
    "Verif.C84_compare_false"
   ],
   "note": "Documents are only read from RDF, so it is no format to save in. The hypotheses on documents are those of C12, C58, C60, C62 and C65, and those on graphs are those of C79, C80 and C81."
  },
  {
   "property": "C85",
   "status": "proved",
   "theorems": [
    "Verif.C85_legal",
    "Verif.C85_says",
    "Verif.C85_kept",
    "Verif.C85_stable_json",
    "Verif.C85_stable_yaml",
    "Verif.C85_same_text",
    "Verif.C85_whole",
    "Verif.C85_sample",
    "Verif.C85_different_false"
   ],
   "note": "keptDoc (Spec/JsonDoc.lean) says what JSON keeps: reviews, subjects of annotations and snippets in files are lost. C85_different_false: documents that differ in these are written as the same text. The YAML library is a parameter as in C60."
  },
  {
   "property": "C86",
   "status": "proved",
   "theorems": [
    "Verif.C86_read",
    "Verif.C86_alike",
    "Verif.C86_nil",
    "Verif.C86_document",
    "Verif.C86_sample",
    "Verif.C86_again_false"
   ],
   "note": "ListsOfDocument (Spec/EmptyLists.lean) says where [] and null stand. C86_again_false: a text with an empty but not nil list of excluded files of a package of 2.2 is not written again after reading; in 2.1 the code is always named."
  },
  {
   "property": "C87",
   "status": "proved",
   "theorems": [
    "Verif.C87_text",
    "Verif.C87_says",
    "Verif.C87_round_trip",
    "Verif.C87_no_panic",
    "Verif.C87_sample",
    "Verif.C87_packages_sample",
    "Verif.C87_mixed_false",
    "Verif.C87_length",
    "Verif.C87_length_sample"
   ],
   "note": "C87_mixed_false: a document that gives its files twice is read with a file that has the name of the last and the comment of the first. Entries null of lists of pointers are rejected here as in C57; C66 has them."
  },
  {
   "property": "C88",
   "status": "proved",
   "theorems": [
    "Verif.C88_seen",
    "Verif.C88_read",
    "Verif.C88_says",
    "Verif.C88_agent",
    "Verif.C88_no_panic",
    "Verif.C88_sample",
    "Verif.C88_object_false",
    "Verif.C88_blanks_false"
   ],
   "note": "C88_object_false: an object in place of a creator is accepted. C88_blanks_false: two texts of one JSON value that differ in blanks are read as different documents. readJsonAny is readJsonText with its parameter odd determined, so what is proved for every odd holds of it."
  },
  {
   "property": "C89",
   "status": "proved",
   "theorems": [
    "Verif.C89_space",
    "Verif.C89_trim",
    "Verif.C89_trim_space",
    "Verif.C89_cut",
    "Verif.C89_uncut",
    "Verif.C89_ends",
    "Verif.C89_join",
    "Verif.C89_split",
    "Verif.C89_length",
    "Verif.C89_order",
    "Verif.C89_digits",
    "Verif.C89_number",
    "Verif.C89_reads_number",
    "Verif.C89_lower",
    "Verif.C89_upper",
    "Verif.C89_case",
    "Verif.C89_sample"
   ],
   "note": "The functions of the Go library that the model restates, and that other specifications use, have the meaning of Spec/Words. Cases of letters outside ASCII are modelled only as far as they become ASCII letters."
  },
  {
   "property": "C90",
   "status": "proved",
   "theorems": [
    "Verif.C90_converted",
    "Verif.C90_total",
    "Verif.C90_plain",
    "Verif.C90_missing",
    "Verif.C90_there_and_back",
    "Verif.C90_read_json",
    "Verif.C90_sample",
    "Verif.C90_snippet_false"
   ],
   "note": "go-struct-converter as in C62: modelled by its documentation; an element that is nil leaves its place in a slice as it is and is left out of a map. C90_snippet_false: with a missing snippet, there and back is not the same document."
  },
  {
   "property": "C91",
   "status": "proved",
   "theorems": [
    "Verif.C91_next",
    "Verif.C91_far",
    "Verif.C91_kept",
    "Verif.C91_solid",
    "Verif.C91_faithful",
    "Verif.C91_documents",
    "Verif.C91_sample",
    "Verif.C91_file_false"
   ],
   "note": "go-struct-converter as in C62. The exact form of C62 and C90, without their assumption that nothing is empty. C91_file_false: a file that is not empty can be missing after two steps."
  },
  {
   "property": "C92",
   "status": "proved",
   "theorems": [
    "Verif.C92_same",
    "Verif.C92_prefix",
    "Verif.C92_before",
    "Verif.C92_in_order",
    "Verif.C92_exist",
    "Verif.C92_sample",
    "Verif.C92_in_order_sample",
    "Verif.C92_noticed_false"
   ],
   "note": "C92_in_order: gaps inside files and packages; of these, the complete ones with smaller identifiers arrive, and of the package with the gap its complete files with smaller identifiers. C92_noticed_false: the text that a panic leaves behind can be read without an error."
  },
  {
   "property": "C93",
   "status": "proved",
   "theorems": [
    "Verif.C93_valid",
    "Verif.C93_invalid",
    "Verif.C93_packaged_file",
    "Verif.C93_same_answer",
    "Verif.C93_sample",
    "Verif.C93_packaged_sample",
    "Verif.C93_complete_false",
    "Verif.C93_none_false"
   ],
   "note": "The conditions on graphs are those of C69. C93_complete_false, C93_none_false: what a user would expect and does not hold."
  },
  {
   "property": "C94",
   "status": "proved",
   "theorems": [
    "Verif.C94_nothing_said",
    "Verif.C94_described",
    "Verif.C94_never_found",
    "Verif.C94_sample",
    "Verif.C94_described_sample",
    "Verif.C94_found_false"
   ],
   "note": "C94_found_false: the packages that a document in RDF says it describes are not found."
  },
  {
   "property": "C95",
   "status": "proved",
   "theorems": [
    "Verif.C95_valid",
    "Verif.C95_invalid",
    "Verif.C95_other_version",
    "Verif.C95_text_sample",
    "Verif.C95_sample",
    "Verif.C95_contained_false",
    "Verif.C95_external_false"
   ],
   "note": "The conditions on texts are those of C11. C95_contained_false, C95_external_false: what a user would expect and does not hold. C95_other_version states both properties for texts read into a variable of any version."
  },
  {
   "property": "C96",
   "status": "proved",
   "theorems": [
    "Verif.C96_described",
    "Verif.C96_single",
    "Verif.C95_other_version",
    "Verif.C95_text_sample",
    "Verif.C95_sample",
    "Verif.C96_packages_false"
   ],
   "note": "C96_packages_false: what is described need not be a package. C95_other_version states both properties for texts read into a variable of any version."
  },
  {
   "property": "C97",
   "status": "proved",
   "theorems": [
    "Verif.C97_valid",
    "Verif.C97_invalid",
    "Verif.C97_json_text",
    "Verif.C97_yaml_text",
    "Verif.C97_other_version",
    "Verif.C97_text_sample",
    "Verif.C97_other_identifier",
    "Verif.C97_sample",
    "Verif.C97_identifier_false",
    "Verif.C97_contained_false",
    "Verif.C97_none_false",
    "Verif.C97_hidden_false"
   ],
   "note": "C97_hidden_false: the condition on identifiers is needed. The other three: what a user would expect and does not hold. C97_json_text, C97_yaml_text and C97_other_version state both properties for texts and for reading into a variable of another version."
  },
  {
   "property": "C98",
   "status": "proved",
   "theorems": [
    "Verif.C98_described",
    "Verif.C98_single",
    "Verif.C97_json_text",
    "Verif.C97_yaml_text",
    "Verif.C97_other_version",
    "Verif.C97_text_sample",
    "Verif.C97_sample",
    "Verif.C98_version_false",
    "Verif.C98_once_false"
   ],
   "note": "C98_version_false: in 2.1 documentDescribes does not count. C98_once_false: an element may be listed twice. C97_json_text, C97_yaml_text and C97_other_version state both properties for texts and for reading into a variable of another version."
  },
  {
   "property": "C99",
   "status": "proved",
   "theorems": [
    "Verif.C99_in_document",
    "Verif.C99_grow",
    "Verif.C99_merge",
    "Verif.C99_relate",
    "Verif.C99_remove_package",
    "Verif.C99_remove_file",
    "Verif.C99_merge_described",
    "Verif.C99_sample",
    "Verif.C99_second_package_false",
    "Verif.C99_package_false"
   ],
   "note": "C99_second_package_false: adding a package may change which packages are described, or make the query fail. C99_package_false: what is described need not be a package."
  }
 ]
}