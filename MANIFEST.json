{
 "claims": [
  {
   "property": "C01",
   "status": "proved",
   "theorems": [
    "Verif.Props.C01_histories_refine_dictionary",
    "Verif.Props.C01_panics_only_where_documented"
   ],
   "note": ""
  },
  {
   "property": "C02",
   "status": "proved",
   "theorems": [
    "Verif.Props.C02_never_out_of_sync",
    "Verif.Props.C02_found_iff_listed"
   ],
   "note": ""
  },
  {
   "property": "C03",
   "status": "proved",
   "theorems": [
    "Verif.Props.C03_keys_unique",
    "Verif.Props.C03_entries_total",
    "Verif.Props.C03_nan_false"
   ],
   "note": "C03_nan_false records that uniqueness by lookup does not extend to NaN keys of AnyMap, which the property excludes (comparable keys)."
  },
  {
   "property": "C04",
   "status": "proved",
   "theorems": [
    "Verif.Props.C04_put_appends",
    "Verif.Props.C04_put_get"
   ],
   "note": ""
  },
  {
   "property": "C05",
   "status": "proved",
   "theorems": [
    "Verif.Props.C05_replaceIfExists",
    "Verif.Props.C05_replaceIfExists_absent",
    "Verif.Props.C05_replaceOrPut"
   ],
   "note": ""
  },
  {
   "property": "C06",
   "status": "proved",
   "theorems": [
    "Verif.Props.C06_delete_exact",
    "Verif.Props.C06_delete_idempotent"
   ],
   "note": ""
  },
  {
   "property": "C07",
   "status": "proved",
   "theorems": [
    "Verif.Props.C07_indexOf_at",
    "Verif.Props.C07_indexOf_absent",
    "Verif.Props.C07_at_indexOf_get"
   ],
   "note": ""
  },
  {
   "property": "C08",
   "status": "proved",
   "theorems": [
    "Verif.Props.C08_get_is_last_write"
   ],
   "note": ""
  },
  {
   "property": "C09",
   "status": "proved",
   "theorems": [
    "Verif.Props.C09_putIfNotNil_nil_invisible",
    "Verif.Props.C09_putIfNotNil_some"
   ],
   "note": ""
  },
  {
   "property": "C10",
   "status": "proved",
   "theorems": [
    "Verif.Props.C10_forEach_in_order",
    "Verif.Props.C10_forEach_no_delete",
    "Verif.Props.C10_forEach_visits_original_keys",
    "Verif.Props.C10_forEach_delete_panics"
   ],
   "note": "C10_forEach_delete_panics is the negative part of the statement, for every map with at least two entries."
  },
  {
   "property": "C11",
   "status": "proved",
   "theorems": [
    "Verif.Props.C11_slice_layout_invisible",
    "Verif.Props.C11_slice_refines_dictionary",
    "Verif.Props.C11_new_panics_iff_negative"
   ],
   "note": ""
  },
  {
   "property": "C12",
   "status": "proved",
   "theorems": [
    "Verif.Props.C12_yaml_form",
    "Verif.Props.C12_yaml_injective",
    "Verif.Props.C12_serializeOrdered_neutral"
   ],
   "note": ""
  },
  {
   "property": "C13",
   "status": "proved",
   "theorems": [
    "Verif.Props.C13_ordered_json",
    "Verif.Props.C13_unordered_json_deterministic",
    "Verif.Props.C13_string_map_json",
    "Verif.Props.C13_json_fields",
    "Verif.Props.C13_any_map_json_false"
   ],
   "note": "C13_any_map_json_false is the exception named in the statement."
  },
  {
   "property": "C14",
   "status": "proved",
   "theorems": [
    "Verif.Props.C14_type_expression",
    "Verif.Props.C14_classify"
   ],
   "note": ""
  },
  {
   "property": "C15",
   "status": "proved",
   "theorems": [
    "Verif.Props.C15_kind_of_mapping",
    "Verif.Props.C15_sequence_type_rejected",
    "Verif.Props.C15_other_type_rejected",
    "Verif.Props.C15_include_type_rejected"
   ],
   "note": ""
  },
  {
   "property": "C16",
   "status": "proved",
   "theorems": [
    "Verif.Props.C16_sequence_rejected",
    "Verif.Props.C16_scalar_rejected",
    "Verif.Props.C16_nested",
    "Verif.Props.C16_nested_rejected"
   ],
   "note": ""
  },
  {
   "property": "C17",
   "status": "proved",
   "theorems": [
    "Verif.Props.C17_type_text",
    "Verif.Props.C17_one_entry",
    "Verif.Props.C17_no_entry",
    "Verif.Props.C17_two_entries"
   ],
   "note": ""
  },
  {
   "property": "C18",
   "status": "proved",
   "theorems": [
    "Verif.Props.C18_collection_key",
    "Verif.Props.C18_collection_key_written",
    "Verif.Props.C18_extra_facets"
   ],
   "note": ""
  },
  {
   "property": "C19",
   "status": "proved",
   "theorems": [
    "Verif.Props.C19_facet_depends_on_own_entries",
    "Verif.Props.C19_order_irrelevant",
    "Verif.Props.C19_remove_other_entries"
   ],
   "note": ""
  },
  {
   "property": "C20",
   "status": "proved",
   "theorems": [
    "Verif.Props.C20_type_prefix",
    "Verif.Props.C20_type_first_failure",
    "Verif.Props.C20_api_prefix",
    "Verif.Props.C20_api_first_failure",
    "Verif.Props.C20_library_prefix",
    "Verif.Props.C20_library_first_failure"
   ],
   "note": ""
  },
  {
   "property": "C21",
   "status": "partial",
   "theorems": [
    "Verif.Props.C21_type_panic_cause",
    "Verif.Props.C21_type_no_panic",
    "Verif.Props.C21_type_cause_not_ok",
    "Verif.Props.C21_type_empty_key",
    "Verif.Props.C21_property_panics",
    "Verif.Props.C21_example_panics",
    "Verif.Props.C21_api_panic_cause",
    "Verif.Props.C21_api_no_panic",
    "Verif.Props.C21_api_cause_not_ok",
    "Verif.Props.C21_api_empty_key",
    "Verif.Props.C21_api_type_panics",
    "Verif.Props.C21_library_panic_cause",
    "Verif.Props.C21_library_no_panic",
    "Verif.Props.C21_library_cause_not_ok",
    "Verif.Props.C21_library_empty_key",
    "Verif.Props.C21_clean_tree"
   ],
   "note": "False as titled, and proved false: an empty-string key in an API document, a library, an extended type or an example panics, and so does a property declared nil or as an include. Proved in full: every panic has one of these causes at a place the theorems name exactly, a tree without them never panics, a tree with one is never accepted, and acceptable entries followed by a cause do panic. C87 gives the exact condition."
  },
  {
   "property": "C22",
   "status": "partial",
   "theorems": [
    "Verif.Props.C22_unsigned_value_partial",
    "Verif.Props.C22_negative_wraps",
    "Verif.Props.C22_not_integer_rejected",
    "Verif.Props.C22_negative_false"
   ],
   "note": "As titled it is false of the code: C22_negative_false gives a wrong value for every negative integer. C22_unsigned_value_partial is the part that holds, C22_negative_wraps the exact behaviour otherwise."
  },
  {
   "property": "C23",
   "status": "proved",
   "theorems": [
    "Verif.Props.C23_enum_in_order"
   ],
   "note": ""
  },
  {
   "property": "C24",
   "status": "partial",
   "theorems": [
    "Verif.Props.C24_example_value",
    "Verif.Props.C24_example_accepted_partial",
    "Verif.Props.C24_any_example_false",
    "Verif.Props.C24_expanded_example_value"
   ],
   "note": "As titled it is false of the code: C24_any_example_false. The _partial theorem covers every other kind."
  },
  {
   "property": "C25",
   "status": "partial",
   "theorems": [
    "Verif.Props.C25_default_unset_false",
    "Verif.Props.C25_default_is_extra_partial"
   ],
   "note": "As titled it is false of the code: C25_default_unset_false. The _partial theorem says where the entry goes."
  },
  {
   "property": "C26",
   "status": "proved",
   "theorems": [
    "Verif.Props.C26_lossless",
    "Verif.Props.C26_parsed_lossless",
    "Verif.Props.C26_read_back",
    "Verif.Props.C26_mismatch_false"
   ],
   "note": "C26_lossless and C26_parsed_lossless are the statement; C26_read_back says exactly what comes back for a larger class; C26_mismatch_false shows the condition on the kind is needed."
  },
  {
   "property": "C27",
   "status": "proved",
   "theorems": [
    "Verif.Props.C27_short_form",
    "Verif.Props.C27_long_form",
    "Verif.Props.C27_scalar_iff_bare",
    "Verif.Props.C27_parsed"
   ],
   "note": "Shaped holds for every type any API can build, NoTypeKey excludes user-chosen extra facets named type; C27_parsed shows both for every parsed type."
  },
  {
   "property": "C28",
   "status": "proved",
   "theorems": [
    "Verif.Props.C28_facet_entry",
    "Verif.Props.C28_nothing_else",
    "Verif.Props.C28_extras_written",
    "Verif.Props.C28_defaults_not_written"
   ],
   "note": "Clean excludes key clashes chosen by the user. Restoring is C26."
  },
  {
   "property": "C29",
   "status": "partial",
   "theorems": [
    "Verif.Props.C29_expanded_partial",
    "Verif.Props.C29_only_value_false",
    "Verif.Props.C29_type_example_false",
    "Verif.Props.C29_annotated_false"
   ],
   "note": "As titled it is false of the code: C29_only_value_false, C29_type_example_false, C29_annotated_false. The _partial theorem is the part that holds."
  },
  {
   "property": "C30",
   "status": "partial",
   "theorems": [
    "Verif.Props.C30_parsed_false",
    "Verif.Props.C30_facets_false",
    "Verif.Props.C30_unreadable_false"
   ],
   "note": "As titled it is false of the code: C30_facets_false shows facet definitions never survive, C30_unreadable_false that such types are unreadable. C26_read_back covers maps switched to plain output by the user."
  },
  {
   "property": "C31",
   "status": "proved",
   "theorems": [
    "Verif.Props.C31_xml_settings",
    "Verif.Props.C31_type_xml"
   ],
   "note": ""
  },
  {
   "property": "C32",
   "status": "proved",
   "theorems": [
    "Verif.Props.C32_lossless",
    "Verif.Props.C32_parsed_lossless",
    "Verif.Props.C32_read_back",
    "Verif.Props.C32_documentation_false"
   ],
   "note": "C32_lossless and C32_parsed_lossless are the statement for the round-trippable fragment; C32_read_back says exactly what comes back for a larger class; C32_documentation_false shows why documentation is excluded."
  },
  {
   "property": "C33",
   "status": "proved",
   "theorems": [
    "Verif.Props.C33_part_depends_on_own_entries",
    "Verif.Props.C33_remove_other_entries",
    "Verif.Props.C33_order_irrelevant",
    "Verif.Props.C33_parses_iff_parts_parse"
   ],
   "note": ""
  },
  {
   "property": "C34",
   "status": "proved",
   "theorems": [
    "Verif.Props.C34_resources",
    "Verif.Props.C34_nowhere_else"
   ],
   "note": ""
  },
  {
   "property": "C35",
   "status": "proved",
   "theorems": [
    "Verif.Props.C35_annotations",
    "Verif.Props.C35_extra_facets",
    "Verif.Props.C35_every_entry_accounted"
   ],
   "note": ""
  },
  {
   "property": "C36",
   "status": "proved",
   "theorems": [
    "Verif.Props.C36_title",
    "Verif.Props.C36_optional_text",
    "Verif.Props.C36_string_lists"
   ],
   "note": ""
  },
  {
   "property": "C37",
   "status": "proved",
   "theorems": [
    "Verif.Props.C37_media_types",
    "Verif.Props.C37_single_as_string_false"
   ],
   "note": "C37_single_as_string_false proves the negative part of the statement for every list."
  },
  {
   "property": "C38",
   "status": "partial",
   "theorems": [
    "Verif.Props.C38_parsed_partial",
    "Verif.Props.C38_written_empty_false",
    "Verif.Props.C38_collection_text"
   ],
   "note": "As titled it is false of the code: C38_written_empty_false. The _partial theorem is the part that holds: parsing keeps every documentation entry."
  },
  {
   "property": "C39",
   "status": "partial",
   "theorems": [
    "Verif.Props.C39_api_annotations_false",
    "Verif.Props.C39_api_scalar_annotation_rejected",
    "Verif.Props.C39_library_annotations_false",
    "Verif.Props.C39_parsed_api_false",
    "Verif.Props.C39_parsed_type_false",
    "Verif.Props.C39_parsed_library_false",
    "Verif.Props.C39_type_annotations_false",
    "Verif.Props.C39_scalar_annotation_rejected"
   ],
   "note": "As titled it is false of the code; the negative theorems show it for types, examples (C29_annotated_false), API documents and libraries."
  },
  {
   "property": "C40",
   "status": "partial",
   "theorems": [
    "Verif.Props.C40_unset_then_add_false",
    "Verif.Props.C40_written_differently_false",
    "Verif.Props.C40_annotations",
    "Verif.Props.C40_library_unset_then_add_false",
    "Verif.Props.C40_library_written_differently_false"
   ],
   "note": "As titled it is false of the code, which the statement says: the _false theorems prove it for every section of API documents and libraries whose Unset installs an omap. C40_annotations is the one section for which it holds."
  },
  {
   "property": "C41",
   "status": "proved",
   "theorems": [
    "Verif.Props.C41_no_duplicate_keys",
    "Verif.Props.C41_nothing_else",
    "Verif.Props.C41_entries_in_order",
    "Verif.Props.C41_title_first",
    "Verif.Props.C41_section_entry",
    "Verif.Props.C41_rest_written",
    "Verif.Props.C41_clash_false"
   ],
   "note": "CleanApi excludes user-chosen clashing keys; C41_clash_false shows it is needed."
  },
  {
   "property": "C42",
   "status": "proved",
   "theorems": [
    "Verif.Props.C42_last_call_wins",
    "Verif.Props.C42_other_properties",
    "Verif.Props.C42_schemas_alias",
    "Verif.Props.C42_one_property",
    "Verif.Props.C42_library_last_call_wins"
   ],
   "note": ""
  },
  {
   "property": "C43",
   "status": "proved",
   "theorems": [
    "Verif.Props.C43_lossless",
    "Verif.Props.C43_parsed_lossless",
    "Verif.Props.C43_read_back"
   ],
   "note": "As C32, for libraries."
  },
  {
   "property": "C44",
   "status": "partial",
   "theorems": [
    "Verif.Props.C44_annotation_types_false",
    "Verif.Props.C44_written_at_top_level"
   ],
   "note": "As titled it is false of the code: C44_annotation_types_false and C44_written_at_top_level prove the actual behaviour."
  },
  {
   "property": "C45",
   "status": "proved",
   "theorems": [
    "Verif.Props.C45_part_depends_on_own_entries",
    "Verif.Props.C45_remove_other_entries",
    "Verif.Props.C45_order_irrelevant",
    "Verif.Props.C45_usage",
    "Verif.Props.C45_untyped_parts",
    "Verif.Props.C45_uses",
    "Verif.Props.C45_types",
    "Verif.Props.C45_extra_facets",
    "Verif.Props.C45_every_entry_accounted"
   ],
   "note": ""
  },
  {
   "property": "C46",
   "status": "proved",
   "theorems": [
    "Verif.Props.C46_header_first",
    "Verif.Props.C46_header_failure",
    "Verif.Props.C46_output"
   ],
   "note": ""
  },
  {
   "property": "C47",
   "status": "proved",
   "theorems": [
    "Verif.Props.C47_untyped_loader",
    "Verif.Props.C47_untyped_parts",
    "Verif.Props.C47_uses",
    "Verif.Props.C47_types",
    "Verif.Props.C47_properties"
   ],
   "note": ""
  },
  {
   "property": "C48",
   "status": "proved",
   "theorems": [
    "Verif.Props.C48_type_fixed_point",
    "Verif.Props.C48_fixed_point",
    "Verif.Props.C48_library_fixed_point",
    "Verif.Props.C48_type_false",
    "Verif.Props.C48_library_false"
   ],
   "note": "The round-trippable fragment of the statement is TidyApi, TidyLib, Tidy: the type names the kind and unknown keys mean nothing else. C48_type_false and C48_library_false show the conditions are needed."
  },
  {
   "property": "C49",
   "status": "proved",
   "theorems": [
    "Verif.Props.C49_parsed_api",
    "Verif.Props.C49_parsed_library",
    "Verif.Props.C49_parsed"
   ],
   "note": ""
  },
  {
   "property": "C50",
   "status": "proved",
   "theorems": [
    "Verif.Props.C50_no_duplicate_keys",
    "Verif.Props.C50_entries_in_order",
    "Verif.Props.C50_nothing_else",
    "Verif.Props.C50_section_entry",
    "Verif.Props.C50_rest_written"
   ],
   "note": ""
  },
  {
   "property": "C51",
   "status": "proved",
   "theorems": [
    "Verif.Props.C51_plain_facet",
    "Verif.Props.C51_unsigned_default"
   ],
   "note": "The facets are the rows of the PlainFacet table; a list or bound that depends on the kind has one row per kind."
  },
  {
   "property": "C52",
   "status": "proved",
   "theorems": [
    "Verif.Props.C52_items",
    "Verif.Props.C52_example",
    "Verif.Props.C52_examples",
    "Verif.Props.C52_annotations",
    "Verif.Props.C52_facets"
   ],
   "note": "properties is covered by C47, enum by C23, xml by C31, unknown entries by C18."
  },
  {
   "property": "C53",
   "status": "proved",
   "theorems": [
    "Verif.Props.C53_example_read",
    "Verif.Props.C53_xml_extra"
   ],
   "note": "The five XML settings themselves are covered by C31; here the extra entries."
  },
  {
   "property": "C54",
   "status": "proved",
   "theorems": [
    "Verif.Props.C54_example_accepted",
    "Verif.Props.C54_xml_accepted",
    "Verif.Props.C54_type_accepted"
   ],
   "note": "TypeOk is stated over the node tree alone, through TypePos, the kind and one condition per facet."
  },
  {
   "property": "C55",
   "status": "proved",
   "theorems": [
    "Verif.Props.C55_api_accepted",
    "Verif.Props.C55_same_entries"
   ],
   "note": "C55_same_entries covers libraries as well."
  },
  {
   "property": "C56",
   "status": "proved",
   "theorems": [
    "Verif.Props.C56_library_accepted"
   ],
   "note": ""
  },
  {
   "property": "C57",
   "status": "proved",
   "theorems": [
    "Verif.Props.C57_kind",
    "Verif.Props.C57_history",
    "Verif.Props.C57_last_call_wins",
    "Verif.Props.C57_other_facets",
    "Verif.Props.C57_default",
    "Verif.Props.C57_offered",
    "Verif.Props.C57_constructed_kinds",
    "Verif.Props.C57_examples",
    "Verif.Props.C57_xml",
    "Verif.Props.C57_documentation"
   ],
   "note": "typeAsked and typeEdited are the specification: which call is about which facet and what it asks for."
  },
  {
   "property": "C58",
   "status": "proved",
   "theorems": [
    "Verif.Props.C58_live_maps",
    "Verif.Props.C58_built_read_back",
    "Verif.Props.C58_settings_survive",
    "Verif.Props.C58_built_lossless",
    "Verif.Props.C58_live_maps_plain",
    "Verif.Props.C58_union_false"
   ],
   "note": "C58_built_lossless and C58_settings_survive are the statement, C58_live_maps shows that adding entries through live maps is covered, C58_union_false why union is excluded."
  },
  {
   "property": "C59",
   "status": "proved",
   "theorems": [
    "Verif.Props.C59_ordered_properties_false",
    "Verif.Props.C59_ordered_examples_false",
    "Verif.Props.C59_unset_then_add_properties_false",
    "Verif.Props.C59_unset_then_add_examples_false"
   ],
   "note": "The two C59_unset_then_add theorems are the statement; the C59_ordered theorems are the same for any type with such a map."
  },
  {
   "property": "C60",
   "status": "proved",
   "theorems": [
    "Verif.Props.C60_api_read_back",
    "Verif.Props.C60_api_lossless",
    "Verif.Props.C60_library_read_back",
    "Verif.Props.C60_library_lossless",
    "Verif.Props.C60_live_maps",
    "Verif.Props.C60_api_history",
    "Verif.Props.C60_library_history"
   ],
   "note": "Acceptable arguments are spelled out in GoodApiCall, LosslessApiCall and their library versions; C40 and C44 show why the Unset calls and library annotation types are excluded."
  },
  {
   "property": "C61",
   "status": "proved",
   "theorems": [
    "Verif.Props.C61_api_merge",
    "Verif.Props.C61_library_merge",
    "Verif.Props.C61_lookup",
    "Verif.Props.C61_api_split",
    "Verif.Props.C61_library_split"
   ],
   "note": "C61_api_merge and C61_library_merge give the result on every state and node; C61_lookup says what a name means afterwards."
  },
  {
   "property": "C62",
   "status": "proved",
   "theorems": [
    "Verif.Props.C62_api_refines",
    "Verif.Props.C62_api_failed_load",
    "Verif.Props.C62_library_refines",
    "Verif.Props.C62_library_failed_load",
    "Verif.Props.C62_rest_ignored",
    "Verif.Props.C62_library_rest_ignored",
    "Verif.Props.C62_other_parts_untouched",
    "Verif.Props.C62_atomic_false"
   ],
   "note": "Verif/Doc/Live.lean models the object in place; C62_*_refines ties it to the other model. States inside dropped temporary objects are not observable and not modelled."
  },
  {
   "property": "C63",
   "status": "proved",
   "theorems": [
    "Verif.Props.C63_chunks",
    "Verif.Props.C63_header",
    "Verif.Props.C63_kinds_differ"
   ],
   "note": "The YAML encoder is a parameter; that the head comment comes first (HeadFirst) is a hypothesis."
  },
  {
   "property": "C64",
   "status": "proved",
   "theorems": [
    "Verif.Props.C64_written",
    "Verif.Props.C64_entries_in_order",
    "Verif.Props.C64_keys_once",
    "Verif.Props.C64_parsed",
    "Verif.Props.C64_example_expanded",
    "Verif.Props.C64_example_plain"
   ],
   "note": "C64_written needs no hypothesis; the exact lists need distinct keys (Clean), which C64_parsed gives for every string-keyed mapping that is accepted."
  },
  {
   "property": "C65",
   "status": "proved",
   "theorems": [
    "Verif.Props.C65_xml_contents_false",
    "Verif.Props.C65_xml_reset",
    "Verif.Props.C65_rest_kept",
    "Verif.Props.C65_texts_kept"
   ],
   "note": "A defect of the code, stated as such: XML has no YAML marshaler (MarshalRAML is called by nothing), so it is written as an empty mapping. C65_xml_reset needs string extra keys, because facets are matched by the key's text."
  },
  {
   "property": "C66",
   "status": "proved",
   "theorems": [
    "Verif.Props.C66_read_back_iff",
    "Verif.Props.C66_what_is_read",
    "Verif.Props.C66_api_read_back_iff",
    "Verif.Props.C66_api_what_is_read",
    "Verif.Props.C66_library_read_back_iff",
    "Verif.Props.C66_library_what_is_read"
   ],
   "note": "The converse of C26/C32/C43: Writable, WritableApi and WritableLib are necessary as well as sufficient for regular objects. Libraries with annotation types are left out (they are read into the annotations, C44)."
  },
  {
   "property": "C67",
   "status": "proved",
   "theorems": [
    "Verif.Props.C67_string_accepted",
    "Verif.Props.C67_other_rejected",
    "Verif.Props.C67_round_trip",
    "Verif.Props.C67_written",
    "Verif.Props.C67_checked_false",
    "Verif.Props.C67_named_formats",
    "Verif.Props.C67_in_types"
   ],
   "note": "The lists of formats have no effect on the outcome; C67_checked_false records that they are not enforced."
  },
  {
   "property": "C68",
   "status": "proved",
   "theorems": [
    "Verif.Props.C68_header_injective",
    "Verif.Props.C68_first_line_decides",
    "Verif.Props.C68_line_break_false",
    "Verif.Props.C68_constants",
    "Verif.Props.C68_written_headers"
   ],
   "note": "With a line break in the module type the first line no longer decides: C68_line_break_false."
  },
  {
   "property": "C69",
   "status": "proved",
   "theorems": [
    "Verif.Props.C69_property"
   ],
   "note": "PropertySortingHat is not called by the rest of the package; properties of objects are read as described in C52 and C54."
  },
  {
   "property": "C70",
   "status": "proved",
   "theorems": [
    "Verif.Props.C70_written",
    "Verif.Props.C70_stack",
    "Verif.Props.C70_overflow_iff",
    "Verif.Props.C70_api_written",
    "Verif.Props.C70_api_overflow_iff",
    "Verif.Props.C70_lib_written",
    "Verif.Props.C70_lib_overflow_iff"
   ],
   "note": "The stack is modelled as a number of nested calls; Go's stack limit in bytes is not."
  },
  {
   "property": "C71",
   "status": "proved",
   "theorems": [
    "Verif.Props.C71_type",
    "Verif.Props.C71_api",
    "Verif.Props.C71_lib",
    "Verif.Props.C71_values"
   ],
   "note": ""
  },
  {
   "property": "C72",
   "status": "proved",
   "theorems": [
    "Verif.Props.C72_handed_over",
    "Verif.Props.C72_stay_shared",
    "Verif.Props.C72_unset_alone"
   ],
   "note": "Examples beside the theorems show the sharing through a concrete program."
  },
  {
   "property": "C73",
   "status": "proved",
   "theorems": [
    "Verif.Props.C73_read_type",
    "Verif.Props.C73_new_type",
    "Verif.Props.C73_new_api",
    "Verif.Props.C73_new_lib",
    "Verif.Props.C73_new_map",
    "Verif.Props.C73_new_example",
    "Verif.Props.C73_new_xml",
    "Verif.Props.C73_stay_apart",
    "Verif.Props.C73_load_alone"
   ],
   "note": ""
  },
  {
   "property": "C74",
   "status": "proved",
   "theorems": [
    "Verif.Props.C74_setter",
    "Verif.Props.C74_setter_object",
    "Verif.Props.C74_setter_loop",
    "Verif.Props.C74_edit_extra",
    "Verif.Props.C74_edit_annotations",
    "Verif.Props.C74_edit_xml",
    "Verif.Props.C74_edit_examples",
    "Verif.Props.C74_edit_facets",
    "Verif.Props.C74_edit_properties",
    "Verif.Props.C74_inside_items",
    "Verif.Props.C74_inside_property"
   ],
   "note": ""
  },
  {
   "property": "C75",
   "status": "proved",
   "theorems": [
    "Verif.Props.C75_new_api",
    "Verif.Props.C75_new_lib",
    "Verif.Props.C75_load_api",
    "Verif.Props.C75_load_lib",
    "Verif.Props.C75_setter_api",
    "Verif.Props.C75_setter_lib",
    "Verif.Props.C75_plain_api",
    "Verif.Props.C75_plain_lib",
    "Verif.Props.C75_types_api",
    "Verif.Props.C75_types_lib",
    "Verif.Props.C75_programs"
   ],
   "note": ""
  },
  {
   "property": "C76",
   "status": "proved",
   "theorems": [
    "Verif.Props.C76_stored",
    "Verif.Props.C76_only_that",
    "Verif.Props.C76_kept",
    "Verif.Props.C76_stay_shared",
    "Verif.Props.C76_stay_shared_doc"
   ],
   "note": ""
  },
  {
   "property": "C77",
   "status": "proved",
   "theorems": [
    "Verif.Props.C77_ends",
    "Verif.Props.C77_type_merge",
    "Verif.Props.C77_type_text",
    "Verif.Props.C77_type_rejected",
    "Verif.Props.C77_parse",
    "Verif.Props.C77_type_split",
    "Verif.Props.C77_example_merge",
    "Verif.Props.C77_xml_merge",
    "Verif.Props.C77_documentation_merge"
   ],
   "note": ""
  },
  {
   "property": "C78",
   "status": "proved",
   "theorems": [
    "Verif.Props.C78_type_refines",
    "Verif.Props.C78_type_failed_load",
    "Verif.Props.C78_type_other_node",
    "Verif.Props.C78_type_rest_ignored",
    "Verif.Props.C78_type_untouched",
    "Verif.Props.C78_type_atomic_false",
    "Verif.Props.C78_example_refines",
    "Verif.Props.C78_example_bad_value",
    "Verif.Props.C78_example_failed_load",
    "Verif.Props.C78_example_rest_ignored",
    "Verif.Props.C78_xml_refines",
    "Verif.Props.C78_xml_failed_load",
    "Verif.Props.C78_documentation_refines",
    "Verif.Props.C78_documentation_failed_load"
   ],
   "note": ""
  },
  {
   "property": "C79",
   "status": "proved",
   "theorems": [
    "Verif.Props.C79_type_into",
    "Verif.Props.C79_type_entry",
    "Verif.Props.C79_type_has_type",
    "Verif.Props.C79_type_flag",
    "Verif.Props.C79_type_flag_used",
    "Verif.Props.C79_type_yaml",
    "Verif.Props.C79_example_into",
    "Verif.Props.C79_example_flag",
    "Verif.Props.C79_example_yaml",
    "Verif.Props.C79_xml_into",
    "Verif.Props.C79_xml_read_back",
    "Verif.Props.C79_xml_extra_lost",
    "Verif.Props.C79_documentation_into",
    "Verif.Props.C79_documentation_entry",
    "Verif.Props.C79_documentation_read_back",
    "Verif.Props.C79_documentation_read_back_needs_names"
   ],
   "note": ""
  },
  {
   "property": "C80",
   "status": "proved",
   "theorems": [
    "Verif.Props.C80_load",
    "Verif.Props.C80_load_written",
    "Verif.Props.C80_loads",
    "Verif.Props.C80_new_type",
    "Verif.Props.C80_read_type",
    "Verif.Props.C80_load_xml",
    "Verif.Props.C80_load_example"
   ],
   "note": ""
  },
  {
   "property": "C81",
   "status": "proved",
   "theorems": [
    "Verif.Props.C81_programs",
    "Verif.Props.C81_new_api",
    "Verif.Props.C81_new_lib"
   ],
   "note": ""
  },
  {
   "property": "C82",
   "status": "proved",
   "theorems": [
    "Verif.Props.C82_sessions",
    "Verif.Props.C82_before_or_after",
    "Verif.Props.C82_give_take"
   ],
   "note": ""
  },
  {
   "property": "C83",
   "status": "proved",
   "theorems": [
    "Verif.Props.C83_load_appends",
    "Verif.Props.C83_load_from_yaml",
    "Verif.Props.C83_load_from_yaml_enum",
    "Verif.Props.C83_load_from_yaml_docs",
    "Verif.Props.C83_frame",
    "Verif.Props.C83_getter_keeps",
    "Verif.Props.C83_careful",
    "Verif.Props.C83_clobber"
   ],
   "note": "The sharing is a defect of the code and stated as such (C83_clobber). Objects are numbered fields here; the heap of layer 3 keeps slices as values."
  },
  {
   "property": "C84",
   "status": "proved",
   "theorems": [
    "Verif.Props.C84_library",
    "Verif.Props.C84_example",
    "Verif.Props.C84_xml",
    "Verif.Props.C84_documentation",
    "Verif.Props.C84_api",
    "Verif.Props.C84_api_same",
    "Verif.Props.C84_type",
    "Verif.Props.C84_type_same",
    "Verif.Props.C84_read_then_load"
   ],
   "note": ""
  },
  {
   "property": "C85",
   "status": "proved",
   "theorems": [
    "Verif.Props.C85_threads",
    "Verif.Props.C85_alone",
    "Verif.Props.C85_any_order",
    "Verif.Props.C85_handed_over"
   ],
   "note": "Calls are atomic in the model; data races inside calls are not modelled."
  },
  {
   "property": "C86",
   "status": "proved",
   "theorems": [
    "Verif.Props.C86_type",
    "Verif.Props.C86_type_facets",
    "Verif.Props.C86_type_parts",
    "Verif.Props.C86_plain",
    "Verif.Props.C86_api",
    "Verif.Props.C86_library"
   ],
   "note": ""
  },
  {
   "property": "C87",
   "status": "proved",
   "theorems": [
    "Verif.Props.C87_example",
    "Verif.Props.C87_type",
    "Verif.Props.C87_type_error",
    "Verif.Props.C87_api",
    "Verif.Props.C87_library",
    "Verif.Props.C87_api_error",
    "Verif.Props.C87_library_error"
   ],
   "note": ""
  },
  {
   "property": "C88",
   "status": "proved",
   "theorems": [
    "Verif.Props.C88_example_load",
    "Verif.Props.C88_type",
    "Verif.Props.C88_type_load",
    "Verif.Props.C88_xml_load",
    "Verif.Props.C88_documentation_load",
    "Verif.Props.C88_api_load",
    "Verif.Props.C88_library_load",
    "Verif.Props.C88_api",
    "Verif.Props.C88_library",
    "Verif.Props.C88_api_loads"
   ],
   "note": ""
  },
  {
   "property": "C89",
   "status": "proved",
   "theorems": [
    "Verif.Props.C89_ends_normally_iff",
    "Verif.Props.C89_nothing_written",
    "Verif.Props.C89_output",
    "Verif.Props.C89_fixed_point",
    "Verif.Props.C89_second_run"
   ],
   "note": ""
  },
  {
   "property": "C90",
   "status": "proved",
   "theorems": [
    "Verif.Props.C90_load_api",
    "Verif.Props.C90_load_lib",
    "Verif.Props.C90_load_example",
    "Verif.Props.C90_load_entry",
    "Verif.Props.C90_load_new_objects",
    "Verif.Props.C90_load_entries",
    "Verif.Props.C90_load_apart",
    "Verif.Props.C90_load_others",
    "Verif.Props.C90_load_lib_others",
    "Verif.Props.C90_load_example_others",
    "Verif.Props.C90_extra_own"
   ],
   "note": ""
  },
  {
   "property": "C91",
   "status": "proved",
   "theorems": [
    "Verif.Props.C91_frame",
    "Verif.Props.C91_apart",
    "Verif.Props.C91_parts_come_from",
    "Verif.Props.C91_parse_apart",
    "Verif.Props.C91_new",
    "Verif.Props.C91_edit_maps",
    "Verif.Props.C91_edit_annotation",
    "Verif.Props.C91_edit_entry",
    "Verif.Props.C91_entries_not_written",
    "Verif.Props.C91_set_annotations",
    "Verif.Props.C91_setters",
    "Verif.Props.C91_stay_shared",
    "Verif.Props.C91_not_copied"
   ],
   "note": ""
  },
  {
   "property": "C92",
   "status": "proved",
   "theorems": [
    "Verif.Props.C92_paths_apart",
    "Verif.Props.C92_paths",
    "Verif.Props.C92_types",
    "Verif.Props.C92_examples",
    "Verif.Props.C92_docs",
    "Verif.Props.C92_only_own",
    "Verif.Props.C92_types_failed",
    "Verif.Props.C92_examples_failed",
    "Verif.Props.C92_docs_failed",
    "Verif.Props.C92_again",
    "Verif.Props.C92_all",
    "Verif.Props.C92_local",
    "Verif.Props.C92_any_order",
    "Verif.Props.C92_every_kind",
    "Verif.Props.C92_rows",
    "Verif.Props.C92_example_values",
    "Verif.Props.C92_enum_values",
    "Verif.Props.C92_tables_agree"
   ],
   "note": ""
  },
  {
   "property": "C93",
   "status": "proved",
   "theorems": [
    "Verif.Props.C93_type_survives",
    "Verif.Props.C93_type_lossless",
    "Verif.Props.C93_api_survives",
    "Verif.Props.C93_api_lossless",
    "Verif.Props.C93_library_survives",
    "Verif.Props.C93_library_lossless"
   ],
   "note": ""
  },
  {
   "property": "C94",
   "status": "proved",
   "theorems": [
    "Verif.Props.C94_calls",
    "Verif.Props.C94_loads_answer",
    "Verif.Props.C94_lines_read",
    "Verif.Props.C94_lines_see",
    "Verif.Props.C94_lines_write",
    "Verif.Props.C94_lines_hold",
    "Verif.Props.C94_no_race",
    "Verif.Props.C94_either_order"
   ],
   "note": ""
  },
  {
   "property": "C95",
   "status": "proved",
   "theorems": [
    "Verif.Props.C95_types",
    "Verif.Props.C95_apis",
    "Verif.Props.C95_libraries",
    "Verif.Props.C95_long_form",
    "Verif.Props.C95_example_keys",
    "Verif.Props.C95_api_keys",
    "Verif.Props.C95_library_keys"
   ],
   "note": ""
  },
  {
   "property": "C96",
   "status": "proved",
   "theorems": [
    "Verif.Props.C96_example",
    "Verif.Props.C96_type",
    "Verif.Props.C96_type_rewritten",
    "Verif.Props.C96_api",
    "Verif.Props.C96_api_rewritten",
    "Verif.Props.C96_library",
    "Verif.Props.C96_library_rewritten"
   ],
   "note": ""
  },
  {
   "property": "C97",
   "status": "proved",
   "theorems": [
    "Verif.Props.C97_order_perm",
    "Verif.Props.C97_order_first_half",
    "Verif.Props.C97_order_last",
    "Verif.Props.C97_put_while_visiting",
    "Verif.Props.C97_type",
    "Verif.Props.C97_type_order",
    "Verif.Props.C97_type_written",
    "Verif.Props.C97_type_same",
    "Verif.Props.C97_type_same_needs_names",
    "Verif.Props.C97_type_again",
    "Verif.Props.C97_type_stays",
    "Verif.Props.C97_example",
    "Verif.Props.C97_example_plain",
    "Verif.Props.C97_example_plain_unreadable",
    "Verif.Props.C97_documentation"
   ],
   "note": ""
  },
  {
   "property": "C98",
   "status": "proved",
   "theorems": [
    "Verif.Props.C98_type",
    "Verif.Props.C98_type_own",
    "Verif.Props.C98_type_needs_names",
    "Verif.Props.C98_type_place",
    "Verif.Props.C98_api",
    "Verif.Props.C98_api_own",
    "Verif.Props.C98_api_place",
    "Verif.Props.C98_library",
    "Verif.Props.C98_library_own",
    "Verif.Props.C98_library_place"
   ],
   "note": ""
  },
  {
   "property": "C99",
   "status": "proved",
   "theorems": [
    "Verif.Props.C99_place",
    "Verif.Props.C99_found",
    "Verif.Props.C99_program",
    "Verif.Props.C99_facet"
   ],
   "note": ""
  },
  {
   "property": "C100",
   "status": "proved",
   "theorems": [
    "Verif.Props.C100_type",
    "Verif.Props.C100_api",
    "Verif.Props.C100_library",
    "Verif.Props.C100_written_type",
    "Verif.Props.C100_written_api",
    "Verif.Props.C100_written_library"
   ],
   "note": ""
  },
  {
   "property": "C101",
   "status": "proved",
   "theorems": [
    "Verif.Props.C101_type",
    "Verif.Props.C101_api",
    "Verif.Props.C101_library",
    "Verif.Props.C101_permuted",
    "Verif.Props.C101_inside",
    "Verif.Props.C101_scalars_kept",
    "Verif.Props.C101_view_type",
    "Verif.Props.C101_std",
    "Verif.Props.C101_targets_needed"
   ],
   "note": ""
  },
  {
   "property": "C102",
   "status": "proved",
   "theorems": [
    "Verif.Props.C102_type_read",
    "Verif.Props.C102_type_load",
    "Verif.Props.C102_example_load",
    "Verif.Props.C102_xml_load",
    "Verif.Props.C102_documentation_load",
    "Verif.Props.C102_api_load",
    "Verif.Props.C102_api_loads",
    "Verif.Props.C102_library_load",
    "Verif.Props.C102_type_write",
    "Verif.Props.C102_example_write",
    "Verif.Props.C102_api_write",
    "Verif.Props.C102_library_write",
    "Verif.Props.C102_type",
    "Verif.Props.C102_api",
    "Verif.Props.C102_library",
    "Verif.Props.C102_library_none",
    "Verif.Props.C102_type_texts",
    "Verif.Props.C102_api_texts",
    "Verif.Props.C102_library_texts"
   ],
   "note": ""
  },
  {
   "property": "C103",
   "status": "proved",
   "theorems": [
    "Verif.Props.C103_type_read",
    "Verif.Props.C103_type_load",
    "Verif.Props.C103_example_load",
    "Verif.Props.C103_xml_load",
    "Verif.Props.C103_documentation_load",
    "Verif.Props.C103_api_load",
    "Verif.Props.C103_api_parse",
    "Verif.Props.C103_library_load",
    "Verif.Props.C103_library_parse",
    "Verif.Props.C103_type_write",
    "Verif.Props.C103_example_write",
    "Verif.Props.C103_api_write",
    "Verif.Props.C103_library_write",
    "Verif.Props.C103_api",
    "Verif.Props.C103_library",
    "Verif.Props.C103_type",
    "Verif.Props.C103_swap",
    "Verif.Props.C103_swap_std"
   ],
   "note": ""
  },
  {
   "property": "C104",
   "status": "proved",
   "theorems": [
    "Verif.Props.C104_type_write",
    "Verif.Props.C104_example_write",
    "Verif.Props.C104_api_write",
    "Verif.Props.C104_library_write",
    "Verif.Props.C104_type_once",
    "Verif.Props.C104_api_once",
    "Verif.Props.C104_library_once",
    "Verif.Props.C104_type",
    "Verif.Props.C104_api",
    "Verif.Props.C104_library",
    "Verif.Props.C104_meaning",
    "Verif.Props.C104_texts"
   ],
   "note": ""
  },
  {
   "property": "C105",
   "status": "proved",
   "theorems": [
    "Verif.Props.C105_type",
    "Verif.Props.C105_type_any_order",
    "Verif.Props.C105_type_effective",
    "Verif.Props.C105_type_last",
    "Verif.Props.C105_type_methods",
    "Verif.Props.C105_example",
    "Verif.Props.C105_example_any_order",
    "Verif.Props.C105_example_effective",
    "Verif.Props.C105_xml",
    "Verif.Props.C105_xml_any_order",
    "Verif.Props.C105_xml_effective",
    "Verif.Props.C105_doc",
    "Verif.Props.C105_doc_any_order",
    "Verif.Props.C105_doc_effective",
    "Verif.Props.C105_api",
    "Verif.Props.C105_api_any_order",
    "Verif.Props.C105_api_effective",
    "Verif.Props.C105_library",
    "Verif.Props.C105_library_any_order",
    "Verif.Props.C105_library_effective",
    "Verif.Props.C105_effective"
   ],
   "note": ""
  },
  {
   "property": "C106",
   "status": "proved",
   "theorems": [
    "Verif.Props.C106_example",
    "Verif.Props.C106_xml",
    "Verif.Props.C106_type",
    "Verif.Props.C106_type_outcome",
    "Verif.Props.C106_api",
    "Verif.Props.C106_library",
    "Verif.Props.C106_api_outcome",
    "Verif.Props.C106_first",
    "Verif.Props.C106_library_outcome",
    "Verif.Props.C106_library_first"
   ],
   "note": ""
  },
  {
   "property": "C107",
   "status": "proved",
   "theorems": [
    "Verif.Props.C107_api",
    "Verif.Props.C107_api_append",
    "Verif.Props.C107_library",
    "Verif.Props.C107_library_append",
    "Verif.Props.C107_settings",
    "Verif.Props.C107_type",
    "Verif.Props.C107_plain_type",
    "Verif.Props.C107_items",
    "Verif.Props.C107_properties",
    "Verif.Props.C107_types",
    "Verif.Props.C107_documentation",
    "Verif.Props.C107_mended"
   ],
   "note": ""
  },
  {
   "property": "C108",
   "status": "proved",
   "theorems": [
    "Verif.Props.C108_type",
    "Verif.Props.C108_api",
    "Verif.Props.C108_library"
   ],
   "note": ""
  },
  {
   "property": "C109",
   "status": "proved",
   "theorems": [
    "Verif.Props.C109_type",
    "Verif.Props.C109_api",
    "Verif.Props.C109_library"
   ],
   "note": ""
  },
  {
   "property": "C110",
   "status": "proved",
   "theorems": [
    "Verif.Props.C110_example",
    "Verif.Props.C110_type",
    "Verif.Props.C110_type_load",
    "Verif.Props.C110_api_load",
    "Verif.Props.C110_library_load",
    "Verif.Props.C110_api",
    "Verif.Props.C110_library",
    "Verif.Props.C110_example_written",
    "Verif.Props.C110_type_written",
    "Verif.Props.C110_type_rewritten",
    "Verif.Props.C110_api_written",
    "Verif.Props.C110_api_rewritten",
    "Verif.Props.C110_library_written",
    "Verif.Props.C110_library_rewritten"
   ],
   "note": ""
  },
  {
   "property": "C111",
   "status": "proved",
   "theorems": [
    "Verif.Props.C111_type_load",
    "Verif.Props.C111_type",
    "Verif.Props.C111_api_load",
    "Verif.Props.C111_api",
    "Verif.Props.C111_library_load",
    "Verif.Props.C111_library"
   ],
   "note": ""
  },
  {
   "property": "C112",
   "status": "proved",
   "theorems": [
    "Verif.Props.C112_api",
    "Verif.Props.C112_api_free",
    "Verif.Props.C112_api_rewritten",
    "Verif.Props.C112_library",
    "Verif.Props.C112_library_rewritten",
    "Verif.Props.C112_type",
    "Verif.Props.C112_type_free",
    "Verif.Props.C112_type_rewritten"
   ],
   "note": ""
  },
  {
   "property": "C113",
   "status": "proved",
   "theorems": [
    "Verif.Props.C113_api_load",
    "Verif.Props.C113_api",
    "Verif.Props.C113_library_load",
    "Verif.Props.C113_library",
    "Verif.Props.C113_type_load",
    "Verif.Props.C113_type",
    "Verif.Props.C113_type_only",
    "Verif.Props.C113_definition",
    "Verif.Props.C113_types",
    "Verif.Props.C113_api_types",
    "Verif.Props.C113_library_types",
    "Verif.Props.C113_api_written",
    "Verif.Props.C113_api_rewritten",
    "Verif.Props.C113_library_written",
    "Verif.Props.C113_type_written",
    "Verif.Props.C113_type_rewritten",
    "Verif.Props.C113_library_rewritten",
    "Verif.Props.C113_api_blind",
    "Verif.Props.C113_example",
    "Verif.Props.C113_example_written",
    "Verif.Props.C113_documentation"
   ],
   "note": ""
  }
 ]
}