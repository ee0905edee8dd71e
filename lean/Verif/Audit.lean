import Verif.Props.Accept
import Verif.Props.ApiParse
import Verif.Props.ApiRoundTrip
import Verif.Props.ApiWritten
import Verif.Props.Builder
import Verif.Props.BuilderApi
import Verif.Props.BuilderRoundTrip
import Verif.Props.BuilderUnset
import Verif.Props.Calls
import Verif.Props.CollectionKeys
import Verif.Props.Command
import Verif.Props.Contents
import Verif.Props.Crashes
import Verif.Props.Depth
import Verif.Props.EditLocal
import Verif.Props.Entrywise
import Verif.Props.Errors
import Verif.Props.Exact
import Verif.Props.FacetValues
import Verif.Props.FixedPoint
import Verif.Props.Formats
import Verif.Props.Generate
import Verif.Props.Graph
import Verif.Props.Leaves
import Verif.Props.LibWritten
import Verif.Props.Library
import Verif.Props.Load
import Verif.Props.LoadFailed
import Verif.Props.MapMemory
import Verif.Props.MapRender
import Verif.Props.Maps
import Verif.Props.Names
import Verif.Props.NamesWrite
import Verif.Props.Nested
import Verif.Props.NoPanic
import Verif.Props.Origin
import Verif.Props.Overridden
import Verif.Props.OwnMap
import Verif.Props.ParsedDoc
import Verif.Props.Programs
import Verif.Props.Races
import Verif.Props.ReadLocal
import Verif.Props.Readable
import Verif.Props.Reload
import Verif.Props.Rename
import Verif.Props.Reorder
import Verif.Props.Reread
import Verif.Props.SameText
import Verif.Props.Sessions
import Verif.Props.Setters
import Verif.Props.Sharing
import Verif.Props.Sizes
import Verif.Props.Slices
import Verif.Props.Spelling
import Verif.Props.Survive
import Verif.Props.SurviveDoc
import Verif.Props.Threads
import Verif.Props.TypeFacets
import Verif.Props.TypeKinds
import Verif.Props.TypeLoad
import Verif.Props.TypeLoadFailed
import Verif.Props.TypeMarshal
import Verif.Props.TypeObjLoad
import Verif.Props.TypeOrder
import Verif.Props.TypeParts
import Verif.Props.TypeRoundTrip
import Verif.Props.TypeValues
import Verif.Props.TypeWrite
import Verif.Props.WriteDepth
import Verif.Props.WriteLoss
import Verif.Props.WriteOrder
import Verif.Props.WriteSizes

/-! Axioms of every property theorem (generated by tools/manifest.py). -/

#print axioms Verif.Props.C01_histories_refine_dictionary
#print axioms Verif.Props.C01_panics_only_where_documented
#print axioms Verif.Props.C02_never_out_of_sync
#print axioms Verif.Props.C02_found_iff_listed
#print axioms Verif.Props.C03_keys_unique
#print axioms Verif.Props.C03_entries_total
#print axioms Verif.Props.C03_nan_false
#print axioms Verif.Props.C04_put_appends
#print axioms Verif.Props.C04_put_get
#print axioms Verif.Props.C05_replaceIfExists
#print axioms Verif.Props.C05_replaceIfExists_absent
#print axioms Verif.Props.C05_replaceOrPut
#print axioms Verif.Props.C06_delete_exact
#print axioms Verif.Props.C06_delete_idempotent
#print axioms Verif.Props.C07_indexOf_at
#print axioms Verif.Props.C07_indexOf_absent
#print axioms Verif.Props.C07_at_indexOf_get
#print axioms Verif.Props.C08_get_is_last_write
#print axioms Verif.Props.C09_putIfNotNil_nil_invisible
#print axioms Verif.Props.C09_putIfNotNil_some
#print axioms Verif.Props.C10_forEach_in_order
#print axioms Verif.Props.C10_forEach_no_delete
#print axioms Verif.Props.C10_forEach_visits_original_keys
#print axioms Verif.Props.C10_forEach_delete_panics
#print axioms Verif.Props.C11_slice_layout_invisible
#print axioms Verif.Props.C11_slice_refines_dictionary
#print axioms Verif.Props.C11_new_panics_iff_negative
#print axioms Verif.Props.C12_yaml_form
#print axioms Verif.Props.C12_yaml_injective
#print axioms Verif.Props.C12_serializeOrdered_neutral
#print axioms Verif.Props.C13_ordered_json
#print axioms Verif.Props.C13_unordered_json_deterministic
#print axioms Verif.Props.C13_string_map_json
#print axioms Verif.Props.C13_json_fields
#print axioms Verif.Props.C13_any_map_json_false
#print axioms Verif.Props.C14_type_expression
#print axioms Verif.Props.C14_classify
#print axioms Verif.Props.C15_kind_of_mapping
#print axioms Verif.Props.C15_sequence_type_rejected
#print axioms Verif.Props.C15_other_type_rejected
#print axioms Verif.Props.C15_include_type_rejected
#print axioms Verif.Props.C16_sequence_rejected
#print axioms Verif.Props.C16_scalar_rejected
#print axioms Verif.Props.C16_nested
#print axioms Verif.Props.C16_nested_rejected
#print axioms Verif.Props.C17_type_text
#print axioms Verif.Props.C17_one_entry
#print axioms Verif.Props.C17_no_entry
#print axioms Verif.Props.C17_two_entries
#print axioms Verif.Props.C18_collection_key
#print axioms Verif.Props.C18_collection_key_written
#print axioms Verif.Props.C18_extra_facets
#print axioms Verif.Props.C19_facet_depends_on_own_entries
#print axioms Verif.Props.C19_order_irrelevant
#print axioms Verif.Props.C19_remove_other_entries
#print axioms Verif.Props.C20_type_prefix
#print axioms Verif.Props.C20_type_first_failure
#print axioms Verif.Props.C20_api_prefix
#print axioms Verif.Props.C20_api_first_failure
#print axioms Verif.Props.C20_library_prefix
#print axioms Verif.Props.C20_library_first_failure
#print axioms Verif.Props.C21_type_panic_cause
#print axioms Verif.Props.C21_type_no_panic
#print axioms Verif.Props.C21_type_cause_not_ok
#print axioms Verif.Props.C21_type_empty_key
#print axioms Verif.Props.C21_property_panics
#print axioms Verif.Props.C21_example_panics
#print axioms Verif.Props.C21_api_panic_cause
#print axioms Verif.Props.C21_api_no_panic
#print axioms Verif.Props.C21_api_cause_not_ok
#print axioms Verif.Props.C21_api_empty_key
#print axioms Verif.Props.C21_api_type_panics
#print axioms Verif.Props.C21_library_panic_cause
#print axioms Verif.Props.C21_library_no_panic
#print axioms Verif.Props.C21_library_cause_not_ok
#print axioms Verif.Props.C21_library_empty_key
#print axioms Verif.Props.C21_clean_tree
#print axioms Verif.Props.C22_unsigned_value_partial
#print axioms Verif.Props.C22_negative_wraps
#print axioms Verif.Props.C22_not_integer_rejected
#print axioms Verif.Props.C22_negative_false
#print axioms Verif.Props.C23_enum_in_order
#print axioms Verif.Props.C24_example_value
#print axioms Verif.Props.C24_example_accepted_partial
#print axioms Verif.Props.C24_any_example_false
#print axioms Verif.Props.C24_expanded_example_value
#print axioms Verif.Props.C25_default_unset_false
#print axioms Verif.Props.C25_default_is_extra_partial
#print axioms Verif.Props.C26_lossless
#print axioms Verif.Props.C26_parsed_lossless
#print axioms Verif.Props.C26_read_back
#print axioms Verif.Props.C26_mismatch_false
#print axioms Verif.Props.C27_short_form
#print axioms Verif.Props.C27_long_form
#print axioms Verif.Props.C27_scalar_iff_bare
#print axioms Verif.Props.C27_parsed
#print axioms Verif.Props.C28_facet_entry
#print axioms Verif.Props.C28_nothing_else
#print axioms Verif.Props.C28_extras_written
#print axioms Verif.Props.C28_defaults_not_written
#print axioms Verif.Props.C29_expanded_partial
#print axioms Verif.Props.C29_only_value_false
#print axioms Verif.Props.C29_type_example_false
#print axioms Verif.Props.C29_annotated_false
#print axioms Verif.Props.C30_parsed_false
#print axioms Verif.Props.C30_facets_false
#print axioms Verif.Props.C30_unreadable_false
#print axioms Verif.Props.C31_xml_settings
#print axioms Verif.Props.C31_type_xml
#print axioms Verif.Props.C32_lossless
#print axioms Verif.Props.C32_parsed_lossless
#print axioms Verif.Props.C32_read_back
#print axioms Verif.Props.C32_documentation_false
#print axioms Verif.Props.C33_part_depends_on_own_entries
#print axioms Verif.Props.C33_remove_other_entries
#print axioms Verif.Props.C33_order_irrelevant
#print axioms Verif.Props.C33_parses_iff_parts_parse
#print axioms Verif.Props.C34_resources
#print axioms Verif.Props.C34_nowhere_else
#print axioms Verif.Props.C35_annotations
#print axioms Verif.Props.C35_extra_facets
#print axioms Verif.Props.C35_every_entry_accounted
#print axioms Verif.Props.C36_title
#print axioms Verif.Props.C36_optional_text
#print axioms Verif.Props.C36_string_lists
#print axioms Verif.Props.C37_media_types
#print axioms Verif.Props.C37_single_as_string_false
#print axioms Verif.Props.C38_parsed_partial
#print axioms Verif.Props.C38_written_empty_false
#print axioms Verif.Props.C38_collection_text
#print axioms Verif.Props.C39_api_annotations_false
#print axioms Verif.Props.C39_api_scalar_annotation_rejected
#print axioms Verif.Props.C39_library_annotations_false
#print axioms Verif.Props.C39_parsed_api_false
#print axioms Verif.Props.C39_parsed_type_false
#print axioms Verif.Props.C39_parsed_library_false
#print axioms Verif.Props.C39_type_annotations_false
#print axioms Verif.Props.C39_scalar_annotation_rejected
#print axioms Verif.Props.C40_unset_then_add_false
#print axioms Verif.Props.C40_written_differently_false
#print axioms Verif.Props.C40_annotations
#print axioms Verif.Props.C40_library_unset_then_add_false
#print axioms Verif.Props.C40_library_written_differently_false
#print axioms Verif.Props.C41_no_duplicate_keys
#print axioms Verif.Props.C41_nothing_else
#print axioms Verif.Props.C41_entries_in_order
#print axioms Verif.Props.C41_title_first
#print axioms Verif.Props.C41_section_entry
#print axioms Verif.Props.C41_rest_written
#print axioms Verif.Props.C41_clash_false
#print axioms Verif.Props.C42_last_call_wins
#print axioms Verif.Props.C42_other_properties
#print axioms Verif.Props.C42_schemas_alias
#print axioms Verif.Props.C42_one_property
#print axioms Verif.Props.C42_library_last_call_wins
#print axioms Verif.Props.C43_lossless
#print axioms Verif.Props.C43_parsed_lossless
#print axioms Verif.Props.C43_read_back
#print axioms Verif.Props.C44_annotation_types_false
#print axioms Verif.Props.C44_written_at_top_level
#print axioms Verif.Props.C45_part_depends_on_own_entries
#print axioms Verif.Props.C45_remove_other_entries
#print axioms Verif.Props.C45_order_irrelevant
#print axioms Verif.Props.C45_usage
#print axioms Verif.Props.C45_untyped_parts
#print axioms Verif.Props.C45_uses
#print axioms Verif.Props.C45_types
#print axioms Verif.Props.C45_extra_facets
#print axioms Verif.Props.C45_every_entry_accounted
#print axioms Verif.Props.C46_header_first
#print axioms Verif.Props.C46_header_failure
#print axioms Verif.Props.C46_output
#print axioms Verif.Props.C47_untyped_loader
#print axioms Verif.Props.C47_untyped_parts
#print axioms Verif.Props.C47_uses
#print axioms Verif.Props.C47_types
#print axioms Verif.Props.C47_properties
#print axioms Verif.Props.C48_type_fixed_point
#print axioms Verif.Props.C48_fixed_point
#print axioms Verif.Props.C48_library_fixed_point
#print axioms Verif.Props.C48_type_false
#print axioms Verif.Props.C48_library_false
#print axioms Verif.Props.C49_parsed_api
#print axioms Verif.Props.C49_parsed_library
#print axioms Verif.Props.C49_parsed
#print axioms Verif.Props.C50_no_duplicate_keys
#print axioms Verif.Props.C50_entries_in_order
#print axioms Verif.Props.C50_nothing_else
#print axioms Verif.Props.C50_section_entry
#print axioms Verif.Props.C50_rest_written
#print axioms Verif.Props.C51_plain_facet
#print axioms Verif.Props.C51_unsigned_default
#print axioms Verif.Props.C52_items
#print axioms Verif.Props.C52_example
#print axioms Verif.Props.C52_examples
#print axioms Verif.Props.C52_annotations
#print axioms Verif.Props.C52_facets
#print axioms Verif.Props.C53_example_read
#print axioms Verif.Props.C53_xml_extra
#print axioms Verif.Props.C54_example_accepted
#print axioms Verif.Props.C54_xml_accepted
#print axioms Verif.Props.C54_type_accepted
#print axioms Verif.Props.C55_api_accepted
#print axioms Verif.Props.C55_same_entries
#print axioms Verif.Props.C56_library_accepted
#print axioms Verif.Props.C57_kind
#print axioms Verif.Props.C57_history
#print axioms Verif.Props.C57_last_call_wins
#print axioms Verif.Props.C57_other_facets
#print axioms Verif.Props.C57_default
#print axioms Verif.Props.C57_offered
#print axioms Verif.Props.C57_constructed_kinds
#print axioms Verif.Props.C57_examples
#print axioms Verif.Props.C57_xml
#print axioms Verif.Props.C57_documentation
#print axioms Verif.Props.C58_live_maps
#print axioms Verif.Props.C58_built_read_back
#print axioms Verif.Props.C58_settings_survive
#print axioms Verif.Props.C58_built_lossless
#print axioms Verif.Props.C58_live_maps_plain
#print axioms Verif.Props.C58_union_false
#print axioms Verif.Props.C59_ordered_properties_false
#print axioms Verif.Props.C59_ordered_examples_false
#print axioms Verif.Props.C59_unset_then_add_properties_false
#print axioms Verif.Props.C59_unset_then_add_examples_false
#print axioms Verif.Props.C60_api_read_back
#print axioms Verif.Props.C60_api_lossless
#print axioms Verif.Props.C60_library_read_back
#print axioms Verif.Props.C60_library_lossless
#print axioms Verif.Props.C60_live_maps
#print axioms Verif.Props.C60_api_history
#print axioms Verif.Props.C60_library_history
#print axioms Verif.Props.C61_api_merge
#print axioms Verif.Props.C61_library_merge
#print axioms Verif.Props.C61_lookup
#print axioms Verif.Props.C61_api_split
#print axioms Verif.Props.C61_library_split
#print axioms Verif.Props.C62_api_refines
#print axioms Verif.Props.C62_api_failed_load
#print axioms Verif.Props.C62_library_refines
#print axioms Verif.Props.C62_library_failed_load
#print axioms Verif.Props.C62_rest_ignored
#print axioms Verif.Props.C62_library_rest_ignored
#print axioms Verif.Props.C62_other_parts_untouched
#print axioms Verif.Props.C62_atomic_false
#print axioms Verif.Props.C63_chunks
#print axioms Verif.Props.C63_header
#print axioms Verif.Props.C63_kinds_differ
#print axioms Verif.Props.C64_written
#print axioms Verif.Props.C64_entries_in_order
#print axioms Verif.Props.C64_keys_once
#print axioms Verif.Props.C64_parsed
#print axioms Verif.Props.C64_example_expanded
#print axioms Verif.Props.C64_example_plain
#print axioms Verif.Props.C65_xml_contents_false
#print axioms Verif.Props.C65_xml_reset
#print axioms Verif.Props.C65_rest_kept
#print axioms Verif.Props.C65_texts_kept
#print axioms Verif.Props.C66_read_back_iff
#print axioms Verif.Props.C66_what_is_read
#print axioms Verif.Props.C66_api_read_back_iff
#print axioms Verif.Props.C66_api_what_is_read
#print axioms Verif.Props.C66_library_read_back_iff
#print axioms Verif.Props.C66_library_what_is_read
#print axioms Verif.Props.C67_string_accepted
#print axioms Verif.Props.C67_other_rejected
#print axioms Verif.Props.C67_round_trip
#print axioms Verif.Props.C67_written
#print axioms Verif.Props.C67_checked_false
#print axioms Verif.Props.C67_named_formats
#print axioms Verif.Props.C67_in_types
#print axioms Verif.Props.C68_header_injective
#print axioms Verif.Props.C68_first_line_decides
#print axioms Verif.Props.C68_line_break_false
#print axioms Verif.Props.C68_constants
#print axioms Verif.Props.C68_written_headers
#print axioms Verif.Props.C69_property
#print axioms Verif.Props.C70_written
#print axioms Verif.Props.C70_stack
#print axioms Verif.Props.C70_overflow_iff
#print axioms Verif.Props.C70_api_written
#print axioms Verif.Props.C70_api_overflow_iff
#print axioms Verif.Props.C70_lib_written
#print axioms Verif.Props.C70_lib_overflow_iff
#print axioms Verif.Props.C71_type
#print axioms Verif.Props.C71_api
#print axioms Verif.Props.C71_lib
#print axioms Verif.Props.C71_values
#print axioms Verif.Props.C72_handed_over
#print axioms Verif.Props.C72_stay_shared
#print axioms Verif.Props.C72_unset_alone
#print axioms Verif.Props.C73_read_type
#print axioms Verif.Props.C73_new_type
#print axioms Verif.Props.C73_new_api
#print axioms Verif.Props.C73_new_lib
#print axioms Verif.Props.C73_new_map
#print axioms Verif.Props.C73_new_example
#print axioms Verif.Props.C73_new_xml
#print axioms Verif.Props.C73_stay_apart
#print axioms Verif.Props.C73_load_alone
#print axioms Verif.Props.C74_setter
#print axioms Verif.Props.C74_setter_object
#print axioms Verif.Props.C74_setter_loop
#print axioms Verif.Props.C74_edit_extra
#print axioms Verif.Props.C74_edit_annotations
#print axioms Verif.Props.C74_edit_xml
#print axioms Verif.Props.C74_edit_examples
#print axioms Verif.Props.C74_edit_facets
#print axioms Verif.Props.C74_edit_properties
#print axioms Verif.Props.C74_inside_items
#print axioms Verif.Props.C74_inside_property
#print axioms Verif.Props.C75_new_api
#print axioms Verif.Props.C75_new_lib
#print axioms Verif.Props.C75_load_api
#print axioms Verif.Props.C75_load_lib
#print axioms Verif.Props.C75_setter_api
#print axioms Verif.Props.C75_setter_lib
#print axioms Verif.Props.C75_plain_api
#print axioms Verif.Props.C75_plain_lib
#print axioms Verif.Props.C75_types_api
#print axioms Verif.Props.C75_types_lib
#print axioms Verif.Props.C75_programs
#print axioms Verif.Props.C76_stored
#print axioms Verif.Props.C76_only_that
#print axioms Verif.Props.C76_kept
#print axioms Verif.Props.C76_stay_shared
#print axioms Verif.Props.C76_stay_shared_doc
#print axioms Verif.Props.C77_ends
#print axioms Verif.Props.C77_type_merge
#print axioms Verif.Props.C77_type_text
#print axioms Verif.Props.C77_type_rejected
#print axioms Verif.Props.C77_parse
#print axioms Verif.Props.C77_type_split
#print axioms Verif.Props.C77_example_merge
#print axioms Verif.Props.C77_xml_merge
#print axioms Verif.Props.C77_documentation_merge
#print axioms Verif.Props.C78_type_refines
#print axioms Verif.Props.C78_type_failed_load
#print axioms Verif.Props.C78_type_other_node
#print axioms Verif.Props.C78_type_rest_ignored
#print axioms Verif.Props.C78_type_untouched
#print axioms Verif.Props.C78_type_atomic_false
#print axioms Verif.Props.C78_example_refines
#print axioms Verif.Props.C78_example_bad_value
#print axioms Verif.Props.C78_example_failed_load
#print axioms Verif.Props.C78_example_rest_ignored
#print axioms Verif.Props.C78_xml_refines
#print axioms Verif.Props.C78_xml_failed_load
#print axioms Verif.Props.C78_documentation_refines
#print axioms Verif.Props.C78_documentation_failed_load
#print axioms Verif.Props.C79_type_into
#print axioms Verif.Props.C79_type_entry
#print axioms Verif.Props.C79_type_has_type
#print axioms Verif.Props.C79_type_flag
#print axioms Verif.Props.C79_type_flag_used
#print axioms Verif.Props.C79_type_yaml
#print axioms Verif.Props.C79_example_into
#print axioms Verif.Props.C79_example_flag
#print axioms Verif.Props.C79_example_yaml
#print axioms Verif.Props.C79_xml_into
#print axioms Verif.Props.C79_xml_read_back
#print axioms Verif.Props.C79_xml_extra_lost
#print axioms Verif.Props.C79_documentation_into
#print axioms Verif.Props.C79_documentation_entry
#print axioms Verif.Props.C79_documentation_read_back
#print axioms Verif.Props.C79_documentation_read_back_needs_names
#print axioms Verif.Props.C80_load
#print axioms Verif.Props.C80_load_written
#print axioms Verif.Props.C80_loads
#print axioms Verif.Props.C80_new_type
#print axioms Verif.Props.C80_read_type
#print axioms Verif.Props.C80_load_xml
#print axioms Verif.Props.C80_load_example
#print axioms Verif.Props.C81_programs
#print axioms Verif.Props.C81_new_api
#print axioms Verif.Props.C81_new_lib
#print axioms Verif.Props.C82_sessions
#print axioms Verif.Props.C82_before_or_after
#print axioms Verif.Props.C82_give_take
#print axioms Verif.Props.C83_load_appends
#print axioms Verif.Props.C83_load_from_yaml
#print axioms Verif.Props.C83_load_from_yaml_enum
#print axioms Verif.Props.C83_load_from_yaml_docs
#print axioms Verif.Props.C83_frame
#print axioms Verif.Props.C83_getter_keeps
#print axioms Verif.Props.C83_careful
#print axioms Verif.Props.C83_clobber
#print axioms Verif.Props.C84_library
#print axioms Verif.Props.C84_example
#print axioms Verif.Props.C84_xml
#print axioms Verif.Props.C84_documentation
#print axioms Verif.Props.C84_api
#print axioms Verif.Props.C84_api_same
#print axioms Verif.Props.C84_type
#print axioms Verif.Props.C84_type_same
#print axioms Verif.Props.C84_read_then_load
#print axioms Verif.Props.C85_threads
#print axioms Verif.Props.C85_alone
#print axioms Verif.Props.C85_any_order
#print axioms Verif.Props.C85_handed_over
#print axioms Verif.Props.C86_type
#print axioms Verif.Props.C86_type_facets
#print axioms Verif.Props.C86_type_parts
#print axioms Verif.Props.C86_plain
#print axioms Verif.Props.C86_api
#print axioms Verif.Props.C86_library
#print axioms Verif.Props.C87_example
#print axioms Verif.Props.C87_type
#print axioms Verif.Props.C87_type_error
#print axioms Verif.Props.C87_api
#print axioms Verif.Props.C87_library
#print axioms Verif.Props.C87_api_error
#print axioms Verif.Props.C87_library_error
#print axioms Verif.Props.C88_example_load
#print axioms Verif.Props.C88_type
#print axioms Verif.Props.C88_type_load
#print axioms Verif.Props.C88_xml_load
#print axioms Verif.Props.C88_documentation_load
#print axioms Verif.Props.C88_api_load
#print axioms Verif.Props.C88_library_load
#print axioms Verif.Props.C88_api
#print axioms Verif.Props.C88_library
#print axioms Verif.Props.C88_api_loads
#print axioms Verif.Props.C89_ends_normally_iff
#print axioms Verif.Props.C89_nothing_written
#print axioms Verif.Props.C89_output
#print axioms Verif.Props.C89_fixed_point
#print axioms Verif.Props.C89_second_run
#print axioms Verif.Props.C90_load_api
#print axioms Verif.Props.C90_load_lib
#print axioms Verif.Props.C90_load_example
#print axioms Verif.Props.C90_load_entry
#print axioms Verif.Props.C90_load_new_objects
#print axioms Verif.Props.C90_load_entries
#print axioms Verif.Props.C90_load_apart
#print axioms Verif.Props.C90_load_others
#print axioms Verif.Props.C90_load_lib_others
#print axioms Verif.Props.C90_load_example_others
#print axioms Verif.Props.C90_extra_own
#print axioms Verif.Props.C91_frame
#print axioms Verif.Props.C91_apart
#print axioms Verif.Props.C91_parts_come_from
#print axioms Verif.Props.C91_parse_apart
#print axioms Verif.Props.C91_new
#print axioms Verif.Props.C91_edit_maps
#print axioms Verif.Props.C91_edit_annotation
#print axioms Verif.Props.C91_edit_entry
#print axioms Verif.Props.C91_entries_not_written
#print axioms Verif.Props.C91_set_annotations
#print axioms Verif.Props.C91_setters
#print axioms Verif.Props.C91_stay_shared
#print axioms Verif.Props.C91_not_copied
#print axioms Verif.Props.C92_paths_apart
#print axioms Verif.Props.C92_paths
#print axioms Verif.Props.C92_types
#print axioms Verif.Props.C92_examples
#print axioms Verif.Props.C92_docs
#print axioms Verif.Props.C92_only_own
#print axioms Verif.Props.C92_types_failed
#print axioms Verif.Props.C92_examples_failed
#print axioms Verif.Props.C92_docs_failed
#print axioms Verif.Props.C92_again
#print axioms Verif.Props.C92_all
#print axioms Verif.Props.C92_local
#print axioms Verif.Props.C92_any_order
#print axioms Verif.Props.C92_every_kind
#print axioms Verif.Props.C92_rows
#print axioms Verif.Props.C92_example_values
#print axioms Verif.Props.C92_enum_values
#print axioms Verif.Props.C92_tables_agree
#print axioms Verif.Props.C93_type_survives
#print axioms Verif.Props.C93_type_lossless
#print axioms Verif.Props.C93_api_survives
#print axioms Verif.Props.C93_api_lossless
#print axioms Verif.Props.C93_library_survives
#print axioms Verif.Props.C93_library_lossless
#print axioms Verif.Props.C94_calls
#print axioms Verif.Props.C94_loads_answer
#print axioms Verif.Props.C94_lines_read
#print axioms Verif.Props.C94_lines_see
#print axioms Verif.Props.C94_lines_write
#print axioms Verif.Props.C94_lines_hold
#print axioms Verif.Props.C94_no_race
#print axioms Verif.Props.C94_either_order
#print axioms Verif.Props.C95_types
#print axioms Verif.Props.C95_apis
#print axioms Verif.Props.C95_libraries
#print axioms Verif.Props.C95_long_form
#print axioms Verif.Props.C95_example_keys
#print axioms Verif.Props.C95_api_keys
#print axioms Verif.Props.C95_library_keys
#print axioms Verif.Props.C96_example
#print axioms Verif.Props.C96_type
#print axioms Verif.Props.C96_type_rewritten
#print axioms Verif.Props.C96_api
#print axioms Verif.Props.C96_api_rewritten
#print axioms Verif.Props.C96_library
#print axioms Verif.Props.C96_library_rewritten
#print axioms Verif.Props.C97_order_perm
#print axioms Verif.Props.C97_order_first_half
#print axioms Verif.Props.C97_order_last
#print axioms Verif.Props.C97_put_while_visiting
#print axioms Verif.Props.C97_type
#print axioms Verif.Props.C97_type_order
#print axioms Verif.Props.C97_type_written
#print axioms Verif.Props.C97_type_same
#print axioms Verif.Props.C97_type_same_needs_names
#print axioms Verif.Props.C97_type_again
#print axioms Verif.Props.C97_type_stays
#print axioms Verif.Props.C97_example
#print axioms Verif.Props.C97_example_plain
#print axioms Verif.Props.C97_example_plain_unreadable
#print axioms Verif.Props.C97_documentation
#print axioms Verif.Props.C98_type
#print axioms Verif.Props.C98_type_own
#print axioms Verif.Props.C98_type_needs_names
#print axioms Verif.Props.C98_type_place
#print axioms Verif.Props.C98_api
#print axioms Verif.Props.C98_api_own
#print axioms Verif.Props.C98_api_place
#print axioms Verif.Props.C98_library
#print axioms Verif.Props.C98_library_own
#print axioms Verif.Props.C98_library_place
#print axioms Verif.Props.C99_place
#print axioms Verif.Props.C99_found
#print axioms Verif.Props.C99_program
#print axioms Verif.Props.C99_facet
#print axioms Verif.Props.C100_type
#print axioms Verif.Props.C100_api
#print axioms Verif.Props.C100_library
#print axioms Verif.Props.C100_written_type
#print axioms Verif.Props.C100_written_api
#print axioms Verif.Props.C100_written_library
#print axioms Verif.Props.C101_type
#print axioms Verif.Props.C101_api
#print axioms Verif.Props.C101_library
#print axioms Verif.Props.C101_permuted
#print axioms Verif.Props.C101_inside
#print axioms Verif.Props.C101_scalars_kept
#print axioms Verif.Props.C101_view_type
#print axioms Verif.Props.C101_std
#print axioms Verif.Props.C101_targets_needed
#print axioms Verif.Props.C102_type_read
#print axioms Verif.Props.C102_type_load
#print axioms Verif.Props.C102_example_load
#print axioms Verif.Props.C102_xml_load
#print axioms Verif.Props.C102_documentation_load
#print axioms Verif.Props.C102_api_load
#print axioms Verif.Props.C102_api_loads
#print axioms Verif.Props.C102_library_load
#print axioms Verif.Props.C102_type_write
#print axioms Verif.Props.C102_example_write
#print axioms Verif.Props.C102_api_write
#print axioms Verif.Props.C102_library_write
#print axioms Verif.Props.C102_type
#print axioms Verif.Props.C102_api
#print axioms Verif.Props.C102_library
#print axioms Verif.Props.C102_library_none
#print axioms Verif.Props.C102_type_texts
#print axioms Verif.Props.C102_api_texts
#print axioms Verif.Props.C102_library_texts
#print axioms Verif.Props.C103_type_read
#print axioms Verif.Props.C103_type_load
#print axioms Verif.Props.C103_example_load
#print axioms Verif.Props.C103_xml_load
#print axioms Verif.Props.C103_documentation_load
#print axioms Verif.Props.C103_api_load
#print axioms Verif.Props.C103_api_parse
#print axioms Verif.Props.C103_library_load
#print axioms Verif.Props.C103_library_parse
#print axioms Verif.Props.C103_type_write
#print axioms Verif.Props.C103_example_write
#print axioms Verif.Props.C103_api_write
#print axioms Verif.Props.C103_library_write
#print axioms Verif.Props.C103_api
#print axioms Verif.Props.C103_library
#print axioms Verif.Props.C103_type
#print axioms Verif.Props.C103_swap
#print axioms Verif.Props.C103_swap_std
#print axioms Verif.Props.C104_type_write
#print axioms Verif.Props.C104_example_write
#print axioms Verif.Props.C104_api_write
#print axioms Verif.Props.C104_library_write
#print axioms Verif.Props.C104_type_once
#print axioms Verif.Props.C104_api_once
#print axioms Verif.Props.C104_library_once
#print axioms Verif.Props.C104_type
#print axioms Verif.Props.C104_api
#print axioms Verif.Props.C104_library
#print axioms Verif.Props.C104_meaning
#print axioms Verif.Props.C104_texts
#print axioms Verif.Props.C105_type
#print axioms Verif.Props.C105_type_any_order
#print axioms Verif.Props.C105_type_effective
#print axioms Verif.Props.C105_type_last
#print axioms Verif.Props.C105_type_methods
#print axioms Verif.Props.C105_example
#print axioms Verif.Props.C105_example_any_order
#print axioms Verif.Props.C105_example_effective
#print axioms Verif.Props.C105_xml
#print axioms Verif.Props.C105_xml_any_order
#print axioms Verif.Props.C105_xml_effective
#print axioms Verif.Props.C105_doc
#print axioms Verif.Props.C105_doc_any_order
#print axioms Verif.Props.C105_doc_effective
#print axioms Verif.Props.C105_api
#print axioms Verif.Props.C105_api_any_order
#print axioms Verif.Props.C105_api_effective
#print axioms Verif.Props.C105_library
#print axioms Verif.Props.C105_library_any_order
#print axioms Verif.Props.C105_library_effective
#print axioms Verif.Props.C105_effective
#print axioms Verif.Props.C106_example
#print axioms Verif.Props.C106_xml
#print axioms Verif.Props.C106_type
#print axioms Verif.Props.C106_type_outcome
#print axioms Verif.Props.C106_api
#print axioms Verif.Props.C106_library
#print axioms Verif.Props.C106_api_outcome
#print axioms Verif.Props.C106_first
#print axioms Verif.Props.C106_library_outcome
#print axioms Verif.Props.C106_library_first
#print axioms Verif.Props.C107_api
#print axioms Verif.Props.C107_api_append
#print axioms Verif.Props.C107_library
#print axioms Verif.Props.C107_library_append
#print axioms Verif.Props.C107_settings
#print axioms Verif.Props.C107_type
#print axioms Verif.Props.C107_plain_type
#print axioms Verif.Props.C107_items
#print axioms Verif.Props.C107_properties
#print axioms Verif.Props.C107_types
#print axioms Verif.Props.C107_documentation
#print axioms Verif.Props.C107_mended
#print axioms Verif.Props.C108_type
#print axioms Verif.Props.C108_api
#print axioms Verif.Props.C108_library
#print axioms Verif.Props.C109_type
#print axioms Verif.Props.C109_api
#print axioms Verif.Props.C109_library
#print axioms Verif.Props.C110_example
#print axioms Verif.Props.C110_type
#print axioms Verif.Props.C110_type_load
#print axioms Verif.Props.C110_api_load
#print axioms Verif.Props.C110_library_load
#print axioms Verif.Props.C110_api
#print axioms Verif.Props.C110_library
#print axioms Verif.Props.C110_example_written
#print axioms Verif.Props.C110_type_written
#print axioms Verif.Props.C110_type_rewritten
#print axioms Verif.Props.C110_api_written
#print axioms Verif.Props.C110_api_rewritten
#print axioms Verif.Props.C110_library_written
#print axioms Verif.Props.C110_library_rewritten
#print axioms Verif.Props.C111_type_load
#print axioms Verif.Props.C111_type
#print axioms Verif.Props.C111_api_load
#print axioms Verif.Props.C111_api
#print axioms Verif.Props.C111_library_load
#print axioms Verif.Props.C111_library
#print axioms Verif.Props.C112_api
#print axioms Verif.Props.C112_api_free
#print axioms Verif.Props.C112_api_rewritten
#print axioms Verif.Props.C112_library
#print axioms Verif.Props.C112_library_rewritten
#print axioms Verif.Props.C112_type
#print axioms Verif.Props.C112_type_free
#print axioms Verif.Props.C112_type_rewritten
#print axioms Verif.Props.C113_api_load
#print axioms Verif.Props.C113_api
#print axioms Verif.Props.C113_library_load
#print axioms Verif.Props.C113_library
#print axioms Verif.Props.C113_type_load
#print axioms Verif.Props.C113_type
#print axioms Verif.Props.C113_type_only
#print axioms Verif.Props.C113_definition
#print axioms Verif.Props.C113_types
#print axioms Verif.Props.C113_api_types
#print axioms Verif.Props.C113_library_types
#print axioms Verif.Props.C113_api_written
#print axioms Verif.Props.C113_api_rewritten
#print axioms Verif.Props.C113_library_written
#print axioms Verif.Props.C113_type_written
#print axioms Verif.Props.C113_type_rewritten
#print axioms Verif.Props.C113_library_rewritten
#print axioms Verif.Props.C113_api_blind
#print axioms Verif.Props.C113_example
#print axioms Verif.Props.C113_example_written
#print axioms Verif.Props.C113_documentation
