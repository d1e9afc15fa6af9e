{
 "claims": [
  {
   "property": "C01",
   "status": "proved",
   "theorems": [
    "Spdx.C01.format_iff",
    "Spdx.C01.belongs_unique",
    "Spdx.C01.format_error_iff"
   ],
   "note": ""
  },
  {
   "property": "C02",
   "status": "proved",
   "theorems": [
    "Spdx.C02.snakeToCamel_words",
    "Spdx.C02.camelToSnake_words",
    "Spdx.C02.snake_camel_snake",
    "Spdx.C02.camel_snake_camel",
    "Spdx.C02.snakeToCamel_injective",
    "Spdx.C02.single_letter_words_collide",
    "Spdx.C02.json_names_distinct",
    "Spdx.C02.json_names_invert"
   ],
   "note": "The unconditional round trip is false for names with one-letter inner words; single_letter_words_collide is the witness, the other theorems state the exact class and the JSON property table."
  },
  {
   "property": "C03",
   "status": "proved",
   "theorems": [
    "Spdx.C03.day_number_counts",
    "Spdx.C03.naive_roundtrip",
    "Spdx.C03.roundtrip",
    "Spdx.C03.overflow",
    "Spdx.C03.same_text_same_second",
    "Spdx.C03.read_valid",
    "Spdx.C03.on_calendar"
   ],
   "note": ""
  },
  {
   "property": "C04",
   "status": "proved",
   "theorems": [
    "Spdx.C04.roundtrip",
    "Spdx.C04.toStr_injective",
    "Spdx.C04.read_iff",
    "Spdx.C04.newline_accepted"
   ],
   "note": "newline_accepted records that the reader also accepts a trailing newline."
  },
  {
   "property": "C05",
   "status": "proved",
   "theorems": [
    "Spdx.C05.roundtrip",
    "Spdx.C05.roundtrip_only",
    "Spdx.C05.foreign_rejected",
    "Spdx.C05.roundtrip_fails",
    "Spdx.C05.same_text_different_actor"
   ],
   "note": "Exact characterisation (roundtrip, roundtrip_only) plus the witness that the unconditional claim fails."
  },
  {
   "property": "C06",
   "status": "proved",
   "theorems": [
    "Spdx.C06.json_name",
    "Spdx.C06.json_roundtrip",
    "Spdx.C06.tv_name",
    "Spdx.C06.rdf_roundtrip",
    "Spdx.C06.tv_roundtrip",
    "Spdx.C06.tv_names_distinct",
    "Spdx.C06.json_names_distinct",
    "Spdx.C06.rdf_names_distinct",
    "Spdx.C06.tv_colon_fails"
   ],
   "note": ""
  },
  {
   "property": "C07",
   "status": "proved",
   "theorems": [
    "Spdx.C07.accepts_iff",
    "Spdx.C07.documented_partial",
    "Spdx.C07.one_message",
    "Spdx.C07.blake3_digest_rejected",
    "Spdx.C07.md6_too_long_accepted",
    "Spdx.C07.newline_accepted"
   ],
   "note": ""
  },
  {
   "property": "C08",
   "status": "proved",
   "theorems": [
    "Spdx.C08.validate_iff",
    "Spdx.C08.documented_partial",
    "Spdx.C08.too_many_colons",
    "Spdx.C08.external_own_id_accepted",
    "Spdx.C08.newline_accepted",
    "Spdx.C08.foreign_digit_accepted"
   ],
   "note": ""
  },
  {
   "property": "C09",
   "status": "proved",
   "theorems": [
    "Spdx.C09.reported_iff",
    "Spdx.C09.listed",
    "Spdx.C09.listed_once",
    "Spdx.C09.listed_sorted",
    "Spdx.C09.shared_iff"
   ],
   "note": ""
  },
  {
   "property": "C10",
   "status": "proved",
   "theorems": [
    "Spdx.C10.unsupported",
    "Spdx.C10.mismatch",
    "Spdx.C10.otherwise",
    "Spdx.C10.empty_version"
   ],
   "note": ""
  },
  {
   "property": "C11",
   "status": "proved",
   "theorems": [
    "Spdx.C11.valid_describes",
    "Spdx.C11.reported_iff"
   ],
   "note": ""
  },
  {
   "property": "C12",
   "status": "proved",
   "theorems": [
    "Spdx.C12.relationships_resolve",
    "Spdx.C12.annotations_resolve",
    "Spdx.C12.snippet_files_resolve",
    "Spdx.C12.ids_distinct",
    "Spdx.C12.dangling_reported"
   ],
   "note": ""
  },
  {
   "property": "C13",
   "status": "proved",
   "theorems": [
    "Spdx.C13.no_analysis_results"
   ],
   "note": ""
  },
  {
   "property": "C14",
   "status": "proved",
   "theorems": [
    "Spdx.C14.ranges_proper",
    "Spdx.C14.snippet_iff"
   ],
   "note": ""
  },
  {
   "property": "C15",
   "status": "proved",
   "theorems": [
    "Spdx.C15.no_new_algorithm",
    "Spdx.C15.packages22",
    "Spdx.C15.files22",
    "Spdx.C15.snippets22",
    "Spdx.C15.relationships22"
   ],
   "note": ""
  },
  {
   "property": "C16",
   "status": "proved",
   "theorems": [
    "Spdx.C16.same_entries",
    "Spdx.C16.each_once",
    "Spdx.C16.first_occurrence_order",
    "Spdx.C16.idempotent",
    "Spdx.C16.licenses_kept_up_to_equality",
    "Spdx.C16.document_idempotent",
    "Spdx.C16.document_untouched",
    "Spdx.C16.file_fields",
    "Spdx.C16.package_fields",
    "Spdx.C16.snippet_fields",
    "Spdx.C16.other_fields"
   ],
   "note": ""
  },
  {
   "property": "C17",
   "status": "proved",
   "theorems": [
    "Spdx.C17.validity_preserved"
   ],
   "note": ""
  },
  {
   "property": "C18",
   "status": "proved",
   "theorems": [
    "Spdx.C18.found_is_element",
    "Spdx.C18.found_iff",
    "Spdx.C18.lookup_unique",
    "Spdx.C18.type_agrees",
    "Spdx.C18.duplicate_disagreement",
    "Spdx.C18.valid_unique"
   ],
   "note": ""
  },
  {
   "property": "C19",
   "status": "proved",
   "theorems": [
    "Spdx.C19.local_id",
    "Spdx.C19.external_id",
    "Spdx.C19.undeclared",
    "Spdx.C19.malformed",
    "Spdx.C19.success_only",
    "Spdx.C19.injective"
   ],
   "note": ""
  },
  {
   "property": "C20",
   "status": "proved",
   "theorems": [
    "Spdx.C20.recorded_used",
    "Spdx.C20.unrecorded",
    "Spdx.C20.value_iff",
    "Spdx.C20.order_irrelevant"
   ],
   "note": ""
  },
  {
   "property": "C21",
   "status": "proved",
   "theorems": [
    "Spdx.C21.chunked_eq_whole",
    "Spdx.C21.chunk_size_irrelevant"
   ],
   "note": ""
  },
  {
   "property": "C22",
   "status": "proved",
   "theorems": [
    "Spdx.C22.reads_stripped",
    "Spdx.C22.result_clean_distinct",
    "Spdx.C22.clean_unchanged",
    "Spdx.C22.result_clean",
    "Spdx.C22.last_key_wins",
    "Spdx.C22.key_not_cleaned"
   ],
   "note": ""
  },
  {
   "property": "C23",
   "status": "proved",
   "theorems": [
    "Spdx.C23.round_trip",
    "Spdx.C23.element_annotations_kept",
    "Spdx.C23.annotations_permuted",
    "Spdx.C23.round_trip_exact",
    "Spdx.C23.regroup_idempotent",
    "Spdx.C23.second_round_trip",
    "Spdx.C23.written_alike",
    "Spdx.C23.keys_from_tables",
    "Spdx.C23.file_without_checksum_rejected",
    "Spdx.C23.no_creators_rejected",
    "Spdx.C23.reserved_copyright_changed",
    "Spdx.C23.dangling_annotation_reassigned",
    "Spdx.C23.shared_id_annotation_repeated",
    "Spdx.C23.annotation_order_changed",
    "Spdx.C23.microseconds_lost"
   ],
   "note": ""
  },
  {
   "property": "C24",
   "status": "proved",
   "theorems": [
    "Spdx.C24.returned_only_if_all_parsed",
    "Spdx.C24.package_faults",
    "Spdx.C24.file_faults",
    "Spdx.C24.snippet_faults",
    "Spdx.C24.annotation_faults",
    "Spdx.C24.relationship_faults",
    "Spdx.C24.external_reference_faults",
    "Spdx.C24.creation_info_faults",
    "Spdx.C24.external_document_ref_entries",
    "Spdx.C24.missing_creation_info",
    "Spdx.C24.file_type_reported",
    "Spdx.C24.range_reported",
    "Spdx.C24.range_message_lost",
    "Spdx.C24.file_type_message_lost",
    "Spdx.C24.creation_info_reported",
    "Spdx.C24.document_entries",
    "Spdx.C24.package_entries",
    "Spdx.C24.external_reference_entries",
    "Spdx.C24.relationship_entries",
    "Spdx.C24.annotation_entries",
    "Spdx.C24.review_entries",
    "Spdx.C24.faultyTree_error",
    "Spdx.C24.non_object_entry_crashes"
   ],
   "note": ""
  },
  {
   "property": "C25",
   "status": "proved",
   "theorems": [
    "Spdx.C25.implied_completed",
    "Spdx.C25.implied_stated",
    "Spdx.C25.document_relationships",
    "Spdx.C25.shared_id_contains_twice",
    "Spdx.C25.duplicates_are_equal",
    "Spdx.C25.inverse_of_inverse"
   ],
   "note": ""
  },
  {
   "property": "C26",
   "status": "proved",
   "theorems": [
    "Spdx.C26.invalid_refused",
    "Spdx.C26.written",
    "Spdx.C26.text_only_if_valid",
    "Spdx.C26.file_written",
    "Spdx.C26.invalid_empties_file",
    "Spdx.C26.refused_untouched",
    "Spdx.C26.unrepresentable_tree"
   ],
   "note": ""
  },
  {
   "property": "C27",
   "status": "proved",
   "theorems": [
    "Spdx.C27.packagedIds_iff",
    "Spdx.C27.written_once",
    "Spdx.C27.relationship_kept",
    "Spdx.C27.relationship_only",
    "Spdx.C27.said_plain",
    "Spdx.C27.relationships_once",
    "Spdx.C27.shared_id_file_lost"
   ],
   "note": ""
  },
  {
   "property": "C28",
   "status": "proved",
   "theorems": [
    "Spdx.C28.text_survives",
    "Spdx.C28.multiline_survives_iff",
    "Spdx.C28.range_survives_iff",
    "Spdx.C28.checksum_survives",
    "Spdx.C28.relationship_survives",
    "Spdx.C28.externalRef_survives",
    "Spdx.C28.actor_survives",
    "Spdx.C28.supplier_survives",
    "Spdx.C28.date_survives",
    "Spdx.C28.docRef_survives",
    "Spdx.C28.code_survives",
    "Spdx.C28.version_survives",
    "Spdx.C28.excluded_files_merged",
    "Spdx.C28.docRef_needs_sha1",
    "Spdx.C28.tool_supplier_rejected",
    "Spdx.C28.negative_range_rejected",
    "Spdx.C28.person_text_rejected",
    "Spdx.C28.checksum_text_rejected",
    "Spdx.C28.space_lost",
    "Spdx.C28.license_name_none_rejected",
    "Spdx.C28.open_marker_swallows"
   ],
   "note": ""
  },
  {
   "property": "C29",
   "status": "partial",
   "theorems": [
    "Spdx.C29.repeated_rejected_partial",
    "Spdx.C29.repeated_info_rejected",
    "Spdx.C29.second_value_reported_partial",
    "Spdx.C29.first_value_kept_partial",
    "Spdx.C29.first_info_value_kept",
    "Spdx.C29.spdx_id_overwritten"
   ],
   "note": "Holds for every single-valued tag except SPDXID; a second SPDXID in one element overwrites the first silently, proved as C29.spdx_id_overwritten. The _partial theorems cover all other single-valued tags."
  },
  {
   "property": "C30",
   "status": "proved",
   "theorems": [
    "Spdx.C30.edges_iff",
    "Spdx.C30.nodes_iff",
    "Spdx.C30.nodup",
    "Spdx.C30.element_node",
    "Spdx.C30.relationship_comment",
    "Spdx.C30.key_tells",
    "Spdx.C30.one_path",
    "Spdx.C30.colored",
    "Spdx.C30.comment_overwritten"
   ],
   "note": ""
  },
  {
   "property": "C31",
   "status": "partial",
   "theorems": [
    "Spdx.C31.element_list",
    "Spdx.C31.document_present",
    "Spdx.C31.keys_are_ids_partial",
    "Spdx.C31.keys_are_ids_iff",
    "Spdx.C31.listed_id_of_no_element"
   ],
   "note": "Proved for the keys of the payload; that keys are the elements' own identifiers is proved for documents without relationship comments and refuted otherwise (listed_id_of_no_element). keys_are_ids_iff says exactly when."
  },
  {
   "property": "C32",
   "status": "proved",
   "theorems": [
    "Spdx.C32.simple_apart",
    "Spdx.C32.package_in_payload",
    "Spdx.C32.file_in_payload",
    "Spdx.C32.snippet_in_payload",
    "Spdx.C32.elements_kept",
    "Spdx.C32.annotation_in_payload",
    "Spdx.C32.succeeds_iff",
    "Spdx.C32.nothing_else",
    "Spdx.C32.clash_loses_package",
    "Spdx.C32.special_homepage_fails"
   ],
   "note": ""
  },
  {
   "property": "C33",
   "status": "proved",
   "theorems": [
    "Spdx.C33.algorithm",
    "Spdx.C33.injective",
    "Spdx.C33.other_iff",
    "Spdx.C33.checksum",
    "Spdx.C33.package_hashes",
    "Spdx.C33.file_hashes",
    "Spdx.C33.external_document_hash"
   ],
   "note": ""
  },
  {
   "property": "C34",
   "status": "partial",
   "theorems": [
    "Spdx.C34.has_entry",
    "Spdx.C34.one_row",
    "Spdx.C34.dropped_iff",
    "Spdx.C34.direction_partial",
    "Spdx.C34.special_target",
    "Spdx.C34.dependency_of_self_loop",
    "Spdx.C34.dependency_types_not_reversed"
   ],
   "note": "Totality, types and directions proved for all types except DEPENDENCY_OF, for which the direction claim is false (dependency_of_self_loop)."
  },
  {
   "property": "C35",
   "status": "partial",
   "theorems": [
    "Spdx.C35.merged_partial",
    "Spdx.C35.targets_partial",
    "Spdx.C35.commented_kept",
    "Spdx.C35.nothing_added",
    "Spdx.C35.stored_iff",
    "Spdx.C35.targets_iff",
    "Spdx.C35.document_stored_iff",
    "Spdx.C35.target_lost",
    "Spdx.C35.empty_group_dropped",
    "Spdx.C35.scope_lost"
   ],
   "note": "Merging proved for groups without comments and with a target; targets kept when the last of a group has no comment. The full statement is false: target_lost, empty_group_dropped, scope_lost. stored_iff, targets_iff and document_stored_iff describe exactly what every group becomes."
  },
  {
   "property": "C36",
   "status": "proved",
   "theorems": [
    "Spdx.C36.mirrors",
    "Spdx.C36.leaves",
    "Spdx.C36.special",
    "Spdx.C36.missing_name_becomes_text"
   ],
   "note": ""
  },
  {
   "property": "C37",
   "status": "partial",
   "theorems": [
    "Spdx.C37.package_url_iff",
    "Spdx.C37.kept_partial",
    "Spdx.C37.count_partial",
    "Spdx.C37.unsupported_dropped",
    "Spdx.C37.npm_reference_lost",
    "Spdx.C37.in_package"
   ],
   "note": "Proved for the supported reference types; references of other types are dropped (unsupported_dropped)."
  },
  {
   "property": "C38",
   "status": "proved",
   "theorems": [
    "Spdx.C38.round_trip",
    "Spdx.C38.injective",
    "Spdx.C38.written",
    "Spdx.C38.shared_uri_changes_reference",
    "Spdx.C38.newline_not_read",
    "Spdx.C38.own_namespace_loses_reference"
   ],
   "note": ""
  },
  {
   "property": "C39",
   "status": "proved",
   "theorems": [
    "Spdx.C39.relationships"
   ],
   "note": ""
  },
  {
   "property": "C40",
   "status": "proved",
   "theorems": [
    "Spdx.C40.member_names",
    "Spdx.C40.file_types",
    "Spdx.C40.purposes",
    "Spdx.C40.annotation_types",
    "Spdx.C40.reference_categories",
    "Spdx.C40.relationship_types",
    "Spdx.C40.distinct",
    "Spdx.C40.read_is_member"
   ],
   "note": ""
  },
  {
   "property": "C41",
   "status": "proved",
   "theorems": [
    "Spdx.C41.repaired",
    "Spdx.C41.unchanged",
    "Spdx.C41.idempotent",
    "Spdx.C41.entries",
    "Spdx.C41.fields"
   ],
   "note": ""
  },
  {
   "property": "C42",
   "status": "proved",
   "theorems": [
    "Spdx.C42.status_zero_iff",
    "Spdx.C42.status_zero_or_one",
    "Spdx.C42.rejected_untouched",
    "Spdx.C42.validate_only_untouched"
   ],
   "note": ""
  },
  {
   "property": "C43",
   "status": "proved",
   "theorems": [
    "Spdx.C43.accepts_iff",
    "Spdx.C43.special_accepted",
    "Spdx.C43.list_iff",
    "Spdx.C43.undeclared_reported"
   ],
   "note": ""
  },
  {
   "property": "C44",
   "status": "proved",
   "theorems": [
    "Spdx.C44.accepts_of_type",
    "Spdx.C44.accepts_iff",
    "Spdx.C44.all_reported",
    "Spdx.C44.ok_iff",
    "Spdx.C44.by_type",
    "Spdx.C44.fields_distinct",
    "Spdx.C44.setter_checked",
    "Spdx.C44.required_fields",
    "Spdx.C44.flag_fields",
    "Spdx.C44.range_fields",
    "Spdx.C44.text_fields",
    "Spdx.C44.special_fields",
    "Spdx.C44.mixed_list_accepted"
   ],
   "note": ""
  },
  {
   "property": "C45",
   "status": "proved",
   "theorems": [
    "Spdx.C45.accepts_iff",
    "Spdx.C45.one_message",
    "Spdx.C45.regex_defined",
    "Spdx.C45.categories_disjoint",
    "Spdx.C45.npm_iff",
    "Spdx.C45.nuget_iff",
    "Spdx.C45.bower_iff",
    "Spdx.C45.maven_iff",
    "Spdx.C45.swh_iff",
    "Spdx.C45.gitoid_iff",
    "Spdx.C45.purl_iff",
    "Spdx.C45.table"
   ],
   "note": ""
  },
  {
   "property": "C46",
   "status": "partial",
   "theorems": [
    "Spdx.C46.names_distinct",
    "Spdx.C46.converts",
    "Spdx.C46.field_kept",
    "Spdx.C46.field_given",
    "Spdx.C46.payload_partial",
    "Spdx.C46.migrated",
    "Spdx.C46.migrated_objects",
    "Spdx.C46.file_fields",
    "Spdx.C46.dict_field_fails",
    "Spdx.C46.false_dropped",
    "Spdx.C46.member_names"
   ],
   "note": "converts/payload_partial/migrated hold for every payload without non-empty dict-valued fields; dict_field_fails and false_dropped show where the code loses or rejects fields (dicts crash the converter, False and 0 are treated as empty)."
  },
  {
   "property": "C47",
   "status": "proved",
   "theorems": [
    "Spdx.C47.valid_iff"
   ],
   "note": ""
  },
  {
   "property": "C48",
   "status": "proved",
   "theorems": [
    "Spdx.C48.roundtrip",
    "Spdx.C48.roundtrip_relationships",
    "Spdx.C48.file_roundtrip",
    "Spdx.C48.contained_by_changed",
    "Spdx.C48.commented_contains_twice",
    "Spdx.C48.microseconds_lost",
    "Spdx.C48.excluded_files_merged",
    "Spdx.C48.other_checksum_refused",
    "Spdx.C48.no_creator_refused",
    "Spdx.C48.no_checksum_refused",
    "Spdx.C48.tool_supplier_refused"
   ],
   "note": ""
  },
  {
   "property": "C49",
   "status": "proved",
   "theorems": [
    "Spdx.C49.round_trip",
    "Spdx.C49.example_ok",
    "Spdx.C49.plain_package",
    "Spdx.C49.homepage_none",
    "Spdx.C49.reserved_copyright",
    "Spdx.C49.comment_stripped",
    "Spdx.C49.empty_comment_lost",
    "Spdx.C49.attribution_once",
    "Spdx.C49.zero_range_rejected",
    "Spdx.C49.no_line_range_crash",
    "Spdx.C49.anonymous_license_named",
    "Spdx.C49.parentheses_lost"
   ],
   "note": ""
  },
  {
   "property": "C50",
   "status": "proved",
   "theorems": [
    "Spdx.C50.names_ignored",
    "Spdx.C50.written_proper",
    "Spdx.C50.round_trip_any_names",
    "Spdx.C50.name_visible",
    "Spdx.C50.license_name_visible"
   ],
   "note": ""
  },
  {
   "property": "C51",
   "status": "partial",
   "theorems": [
    "Spdx.C51.faults_reported",
    "Spdx.C51.misplaced_reported",
    "Spdx.C51.misplaced_external_ref_reported",
    "Spdx.C51.wrong_kind_reported_partial",
    "Spdx.C51.wrong_kind_lost"
   ],
   "note": "Unknown tags, faulty values and misplaced tags are always reported. A value of the wrong kind (not accepted by the grammar for its tag) is reported in every text that has an element or when it belongs to the creation information; in a text without elements it is lost silently, proved as C51.wrong_kind_lost, so wrong_kind_reported_partial assumes an element."
  },
  {
   "property": "C52",
   "status": "partial",
   "theorems": [
    "Spdx.C52.read_says_partial",
    "Spdx.C52.elements_partial",
    "Spdx.C52.says_unique",
    "Spdx.C52.id_leaks",
    "Spdx.C52.id_taken"
   ],
   "note": "Proved for every text with exactly one SPDXID before the first element. Without that the claim is false of the code: a second SPDXID in the preamble becomes the identifier of the first element (C52.id_leaks), and the first SPDXID of the text is the document's wherever it stands (C52.id_taken)."
  },
  {
   "property": "C53",
   "status": "partial",
   "theorems": [
    "Spdx.C53.plain",
    "Spdx.C53.element_printed",
    "Spdx.C53.payload_printed",
    "Spdx.C53.attribute_shown",
    "Spdx.C53.hash_shown",
    "Spdx.C53.others_hidden",
    "Spdx.C53.hidden_attributes",
    "Spdx.C53.dataset_fails",
    "Spdx.C53.unlisted_fails",
    "Spdx.C53.element_printable",
    "Spdx.C53.migrated",
    "Spdx.C53.date_shown"
   ],
   "note": "Proved for the attributes the printer shows. 'Completely' is false of the code: licenses, copyright, attribution, purposes, root elements and others are never printed (C53.hidden_attributes, others_hidden), a dataset with a dataset type cannot be printed (C53.dataset_fails), and classes missing from the dispatch table raise (C53.unlisted_fails)."
  },
  {
   "property": "C54",
   "status": "proved",
   "theorems": [
    "Spdx.C54.file_written",
    "Spdx.C54.console_written",
    "Spdx.C54.status_zero_or_one",
    "Spdx.C54.rejected_untouched",
    "Spdx.C54.validates",
    "Spdx.C54.other_files",
    "Spdx.C54.failure_keeps_file",
    "Spdx.C54.zero_means",
    "Spdx.C54.default_refuses_old",
    "Spdx.C54.named_version"
   ],
   "note": ""
  },
  {
   "property": "C55",
   "status": "proved",
   "theorems": [
    "Spdx.C55.reads_exactly",
    "Spdx.C55.twice_refused",
    "Spdx.C55.missing_refused",
    "Spdx.C55.wrong_refused",
    "Spdx.C55.counts",
    "Spdx.C55.one_byte_range",
    "Spdx.C55.bound_again",
    "Spdx.C55.written_reads"
   ],
   "note": ""
  },
  {
   "property": "C56",
   "status": "proved",
   "theorems": [
    "Spdx.C56.reads_exactly",
    "Spdx.C56.says_one",
    "Spdx.C56.refused_iff",
    "Spdx.C56.only_objects",
    "Spdx.C56.none_dropped",
    "Spdx.C56.faulty_package_refused",
    "Spdx.C56.faulty_file_refused",
    "Spdx.C56.faulty_snippet_refused",
    "Spdx.C56.relationship_read",
    "Spdx.C56.extracted_read",
    "Spdx.C56.other_members_ignored",
    "Spdx.C56.tree_read",
    "Spdx.C56.unknown_purpose_refused",
    "Spdx.C56.text_read_as_characters",
    "Spdx.C56.earlier_range_lost"
   ],
   "note": ""
  },
  {
   "property": "C57",
   "status": "proved",
   "theorems": [
    "Spdx.C57.read_as_json",
    "Spdx.C57.round_trip",
    "Spdx.C57.round_trip_exact",
    "Spdx.C57.told_apart",
    "Spdx.C57.outer_space_lost",
    "Spdx.C57.empty_text_lost",
    "Spdx.C57.empty_name_refused",
    "Spdx.C57.carriage_return_changed",
    "Spdx.C57.control_character_unreadable",
    "Spdx.C57.empty_extracted_lost",
    "Spdx.C57.empty_extracted_crash",
    "Spdx.C57.negative_range_refused",
    "Spdx.C57.single_review_not_read"
   ],
   "note": ""
  },
  {
   "property": "C58",
   "status": "proved",
   "theorems": [
    "Spdx.C58.regroup_verdict",
    "Spdx.C58.order_irrelevant",
    "Spdx.C58.json_verdict",
    "Spdx.C58.xml_verdict",
    "Spdx.C58.rdf_verdict",
    "Spdx.C58.tagvalue_verdict_same",
    "Spdx.C58.tagvalue_verdict"
   ],
   "note": ""
  },
  {
   "property": "C59",
   "status": "proved",
   "theorems": [
    "Spdx.C59.convert",
    "Spdx.C59.converted_passes",
    "Spdx.C59.print"
   ],
   "note": ""
  },
  {
   "property": "C60",
   "status": "proved",
   "theorems": [
    "Spdx.C60.runs_unique",
    "Spdx.C60.no_conflicts",
    "Spdx.C60.tables_unique",
    "Spdx.C60.parser_is_lalr",
    "Spdx.C60.parse_by_calls",
    "Spdx.C60.symbols_defined",
    "Spdx.C60.handlers",
    "Spdx.C60.id_lost",
    "Spdx.C60.value_void"
   ],
   "note": ""
  },
  {
   "property": "C61",
   "status": "proved",
   "theorems": [
    "Spdx.C61.rules_compile",
    "Spdx.C61.tokens",
    "Spdx.C61.lexer_total",
    "Spdx.C61.token_determined"
   ],
   "note": ""
  },
  {
   "property": "C62",
   "status": "proved",
   "theorems": [
    "Spdx.C62.identifiers",
    "Spdx.C62.verification_code",
    "Spdx.C62.checksum_values",
    "Spdx.C62.locators",
    "Spdx.C62.urls",
    "Spdx.C62.download_locations",
    "Spdx.C62.versions",
    "Spdx.C62.ranges",
    "Spdx.C62.actors",
    "Spdx.C62.text_blocks",
    "Spdx.C62.document_refs",
    "Spdx.C62.verification_codes",
    "Spdx.C62.line_values",
    "Spdx.C62.casing"
   ],
   "note": ""
  },
  {
   "property": "C63",
   "status": "proved",
   "theorems": [
    "Spdx.C63.accepts_iff",
    "Spdx.C63.unambiguous",
    "Spdx.C63.written_is_json",
    "Spdx.C63.written_ascii",
    "Spdx.C63.read_written",
    "Spdx.C63.written_injective",
    "Spdx.C63.document_distinct",
    "Spdx.C63.reads_stripped",
    "Spdx.C63.file_round_trip",
    "Spdx.C63.delivers",
    "Spdx.C63.convert",
    "Spdx.C63.migrated_file",
    "Spdx.C63.backspace_lost"
   ],
   "note": ""
  },
  {
   "property": "C64",
   "status": "partial",
   "theorems": [
    "Spdx.C64.context_generated",
    "Spdx.C64.understood_iff",
    "Spdx.C64.document_understood_partial",
    "Spdx.C64.package_not_understood",
    "Spdx.C64.homepage_dropped",
    "Spdx.C64.purpose_literal",
    "Spdx.C64.tools_literal",
    "Spdx.C64.build_is_namespace",
    "Spdx.C64.algorithm_iff",
    "Spdx.C64.sha3_unknown"
   ],
   "note": "context_generated and understood_iff are exact. At the level of documents the full statement is false of the code (package_not_understood, homepage_dropped, purpose_literal, tools_literal, build_is_namespace, sha3_unknown); document_understood_partial proves it for the documents that avoid these."
  },
  {
   "property": "C65",
   "status": "proved",
   "theorems": [
    "Spdx.C65.payload_iff",
    "Spdx.C65.document_iff",
    "Spdx.C65.valid_iff",
    "Spdx.C65.valid_document_iff",
    "Spdx.C65.tool_only",
    "Spdx.C65.no_name",
    "Spdx.C65.no_root",
    "Spdx.C65.empty_md6",
    "Spdx.C65.empty_locator"
   ],
   "note": ""
  },
  {
   "property": "C66",
   "status": "proved",
   "theorems": [
    "Spdx.C66.first_call",
    "Spdx.C66.as_new_after_document",
    "Spdx.C66.messages_stay",
    "Spdx.C66.old_messages_first",
    "Spdx.C66.history_iff",
    "Spdx.C66.first_call_tagvalue",
    "Spdx.C66.one_document",
    "Spdx.C66.no_document_after_report",
    "Spdx.C66.elements_stay",
    "Spdx.C66.leftover_messages",
    "Spdx.C66.leftover_annotation",
    "Spdx.C66.no_leftover",
    "Spdx.C66.leftover_package",
    "Spdx.C66.repeated_field_raises",
    "Spdx.C66.logging_raises"
   ],
   "note": ""
  },
  {
   "property": "C67",
   "status": "proved",
   "theorems": [
    "Spdx.C67.uncaught_iff",
    "Spdx.C67.shaped",
    "Spdx.C67.written",
    "Spdx.C67.null_packages"
   ],
   "note": ""
  },
  {
   "property": "C68",
   "status": "proved",
   "theorems": [
    "Spdx.C68.checksums_read",
    "Spdx.C68.uncaught_iff",
    "Spdx.C68.bad_actor",
    "Spdx.C68.each_fault_reported",
    "Spdx.C68.each_misplaced_reported",
    "Spdx.C68.each_wrong_kind_reported",
    "Spdx.C68.crash_raises",
    "Spdx.C68.abort_message"
   ],
   "note": ""
  },
  {
   "property": "C69",
   "status": "proved",
   "theorems": [
    "Spdx.C69.reads_exactly",
    "Spdx.C69.crashes_exactly",
    "Spdx.C69.otherwise_refused",
    "Spdx.C69.readable_not_bad",
    "Spdx.C69.exits",
    "Spdx.C69.exits_iff",
    "Spdx.C69.info_first"
   ],
   "note": ""
  },
  {
   "property": "C70",
   "status": "proved",
   "theorems": [
    "Spdx.C70.messages_exactly",
    "Spdx.C70.header_message",
    "Spdx.C70.package_faults",
    "Spdx.C70.package_missing",
    "Spdx.C70.file_faults",
    "Spdx.C70.file_missing",
    "Spdx.C70.snippet_faults",
    "Spdx.C70.snippet_missing",
    "Spdx.C70.annotation_faults",
    "Spdx.C70.annotation_missing",
    "Spdx.C70.relationship_faults",
    "Spdx.C70.relationship_missing",
    "Spdx.C70.extracted_faults",
    "Spdx.C70.extracted_missing",
    "Spdx.C70.checksum_hides",
    "Spdx.C70.header_faults",
    "Spdx.C70.header_missing",
    "Spdx.C70.property_names",
    "Spdx.C70.property_named"
   ],
   "note": ""
  },
  {
   "property": "C71",
   "status": "proved",
   "theorems": [
    "Spdx.C71.conversions",
    "Spdx.C71.growth",
    "Spdx.C71.conversions_grow",
    "Spdx.C71.grows_once"
   ],
   "note": ""
  },
  {
   "property": "C72",
   "status": "proved",
   "theorems": [
    "Spdx.C72.agrees",
    "Spdx.C72.success_iff",
    "Spdx.C72.traceback_iff",
    "Spdx.C72.told_parsing_iff",
    "Spdx.C72.told_malformed_iff",
    "Spdx.C72.told_noFile_iff",
    "Spdx.C72.told_invalid_iff",
    "Spdx.C72.told_version_iff",
    "Spdx.C72.told_noDocument_iff",
    "Spdx.C72.validate_traceback_iff",
    "Spdx.C72.told_input_untouched",
    "Spdx.C72.null_packages",
    "Spdx.C72.bad_relationship",
    "Spdx.C72.yaml_errors",
    "Spdx.C72.xml_no_content"
   ],
   "note": ""
  },
  {
   "property": "C73",
   "status": "proved",
   "theorems": [
    "Spdx.C73.succeeds_iff",
    "Spdx.C73.entries",
    "Spdx.C73.order_free",
    "Spdx.C73.core_first",
    "Spdx.C73.properties_lost",
    "Spdx.C73.taken_for",
    "Spdx.C73.classes_kept",
    "Spdx.C73.local_name"
   ],
   "note": ""
  },
  {
   "property": "C74",
   "status": "proved",
   "theorems": [
    "Spdx.C74.messages_exactly",
    "Spdx.C74.read_iff_nothing_said",
    "Spdx.C74.crashes_iff_undescribed",
    "Spdx.C74.described_iff_shaped",
    "Spdx.C74.messages_unique",
    "Spdx.C74.entries_reported",
    "Spdx.C74.one_message_per_file"
   ],
   "note": ""
  },
  {
   "property": "C75",
   "status": "proved",
   "theorems": [
    "Spdx.C75.message_iff",
    "Spdx.C75.unsupported",
    "Spdx.C75.mismatch",
    "Spdx.C75.cases_complete",
    "Spdx.C75.valid_iff_no_fault",
    "Spdx.C75.in_order",
    "Spdx.C75.names_found"
   ],
   "note": ""
  },
  {
   "property": "C76",
   "status": "proved",
   "theorems": [
    "Spdx.C76.line_number",
    "Spdx.C76.token_there",
    "Spdx.C76.exact_iff",
    "Spdx.C76.never_too_large",
    "Spdx.C76.same_attributes",
    "Spdx.C76.line_of_tag",
    "Spdx.C76.exact_line",
    "Spdx.C76.reused",
    "Spdx.C76.too_small"
   ],
   "note": ""
  },
  {
   "property": "C77",
   "status": "proved",
   "theorems": [
    "Spdx.C77.dates",
    "Spdx.C77.pattern_text"
   ],
   "note": ""
  },
  {
   "property": "C78",
   "status": "proved",
   "theorems": [
    "Spdx.C78.refused_with",
    "Spdx.C78.accepted_iff",
    "Spdx.C78.every_text",
    "Spdx.C78.accepted_tells_nothing"
   ],
   "note": ""
  },
  {
   "property": "C79",
   "status": "proved",
   "theorems": [
    "Spdx.C79.refused_with",
    "Spdx.C79.same_without_lines",
    "Spdx.C79.same_document",
    "Spdx.C79.lines_of_attributes",
    "Spdx.C79.true_lines"
   ],
   "note": ""
  },
  {
   "property": "C80",
   "status": "proved",
   "theorems": [
    "Spdx.C80.parameters_are_fields",
    "Spdx.C80.made_iff",
    "Spdx.C80.reported_iff",
    "Spdx.C80.missing_iff",
    "Spdx.C80.without_arguments",
    "Spdx.C80.required_once",
    "Spdx.C80.respects_signature",
    "Spdx.C80.defaults",
    "Spdx.C80.none_accepted",
    "Spdx.C80.package_without_name",
    "Spdx.C80.assigned_iff",
    "Spdx.C80.last_accepted",
    "Spdx.C80.always_typed",
    "Spdx.C80.fields_written"
   ],
   "note": ""
  },
  {
   "property": "C81",
   "status": "proved",
   "theorems": [
    "Spdx.C81.same_document",
    "Spdx.C81.same_refusal",
    "Spdx.C81.equivalence",
    "Spdx.C81.any_order",
    "Spdx.C81.other_member",
    "Spdx.C81.inside",
    "Spdx.C81.inside_list",
    "Spdx.C81.names_as_entries"
   ],
   "note": ""
  },
  {
   "property": "C82",
   "status": "proved",
   "theorems": [
    "Spdx.C82.anywhere",
    "Spdx.C82.at_start",
    "Spdx.C82.between_lines",
    "Spdx.C82.in_tidy",
    "Spdx.C82.elsewhere_matters"
   ],
   "note": ""
  },
  {
   "property": "C83",
   "status": "proved",
   "theorems": [
    "Spdx.C83.same_document",
    "Spdx.C83.same_refusal",
    "Spdx.C83.any_order",
    "Spdx.C83.same_verdict",
    "Spdx.C83.others_anywhere",
    "Spdx.C83.order_shows"
   ],
   "note": ""
  },
  {
   "property": "C84",
   "status": "proved",
   "theorems": [
    "Spdx.C84.same_verdict",
    "Spdx.C84.same_document",
    "Spdx.C84.other_orders_matter"
   ],
   "note": ""
  },
  {
   "property": "C85",
   "status": "proved",
   "theorems": [
    "Spdx.C85.parameters_are_fields",
    "Spdx.C85.parameters_in_order",
    "Spdx.C85.made_iff",
    "Spdx.C85.reported_iff",
    "Spdx.C85.missing_iff",
    "Spdx.C85.without_arguments",
    "Spdx.C85.required_once",
    "Spdx.C85.respects_signature",
    "Spdx.C85.defaults",
    "Spdx.C85.none_given",
    "Spdx.C85.assigned_iff",
    "Spdx.C85.last_accepted",
    "Spdx.C85.always_typed",
    "Spdx.C85.copies",
    "Spdx.C85.keyword_order",
    "Spdx.C85.same_tables"
   ],
   "note": ""
  },
  {
   "property": "C86",
   "status": "proved",
   "theorems": [
    "Spdx.C86.same_document",
    "Spdx.C86.each_section",
    "Spdx.C86.files_matter",
    "Spdx.C86.identifier_needed"
   ],
   "note": ""
  },
  {
   "property": "C87",
   "status": "proved",
   "theorems": [
    "Spdx.C87.tag_value_line_ends",
    "Spdx.C87.json_line_ends",
    "Spdx.C87.command_line_ends",
    "Spdx.C87.json_layout",
    "Spdx.C87.json_members",
    "Spdx.C87.json_minified",
    "Spdx.C87.json_white_space",
    "Spdx.C87.json_indentation",
    "Spdx.C87.converted_lines"
   ],
   "note": ""
  },
  {
   "property": "C88",
   "status": "proved",
   "theorems": [
    "Spdx.C88.same_entries",
    "Spdx.C88.same_file",
    "Spdx.C88.plain_text"
   ],
   "note": ""
  },
  {
   "property": "C89",
   "status": "proved",
   "theorems": [
    "Spdx.C89.same_elements",
    "Spdx.C89.same_refusal",
    "Spdx.C89.first_actor_kept",
    "Spdx.C89.last_file_kept"
   ],
   "note": ""
  },
  {
   "property": "C90",
   "status": "proved",
   "theorems": [
    "Spdx.C90.cut_short",
    "Spdx.C90.more_after",
    "Spdx.C90.prefix_free",
    "Spdx.C90.written_cut",
    "Spdx.C90.command_cut",
    "Spdx.C90.tag_value_cut"
   ],
   "note": ""
  },
  {
   "property": "C91",
   "status": "proved",
   "theorems": [
    "Spdx.C91.same_json_file",
    "Spdx.C91.same_tag_value_text",
    "Spdx.C91.same_rdf_graph"
   ],
   "note": ""
  },
  {
   "property": "C92",
   "status": "proved",
   "theorems": [
    "Spdx.C92.cut_between_sections",
    "Spdx.C92.cut_accepted_iff"
   ],
   "note": ""
  },
  {
   "property": "C93",
   "status": "proved",
   "theorems": [
    "Spdx.C93.other_files",
    "Spdx.C93.history",
    "Spdx.C93.again",
    "Spdx.C93.either_order",
    "Spdx.C93.order_matters"
   ],
   "note": ""
  },
  {
   "property": "C94",
   "status": "proved",
   "theorems": [
    "Spdx.C94.json_iff",
    "Spdx.C94.tag_value_iff",
    "Spdx.C94.same_documents",
    "Spdx.C94.read_dates",
    "Spdx.C94.rdf_dates",
    "Spdx.C94.tag_value_dates",
    "Spdx.C94.read_then_write",
    "Spdx.C94.rdf_then_write",
    "Spdx.C94.tag_value_then_write"
   ],
   "note": ""
  },
  {
   "property": "C95",
   "status": "proved",
   "theorems": [
    "Spdx.C95.rdf_iff",
    "Spdx.C95.rdf_or_json",
    "Spdx.C95.read_iff",
    "Spdx.C95.without_duplicates"
   ],
   "note": ""
  },
  {
   "property": "C96",
   "status": "proved",
   "theorems": [
    "Spdx.C96.source",
    "Spdx.C96.to_tag_value",
    "Spdx.C96.to_stdout",
    "Spdx.C96.to_tree",
    "Spdx.C96.to_rdf",
    "Spdx.C96.same_inputs",
    "Spdx.C96.all_or_nothing",
    "Spdx.C96.all_or_nothing_stdout"
   ],
   "note": ""
  }
 ]
}