{
 "C03": [
  "proved",
  "C03_nan_false records that uniqueness by lookup does not extend to NaN keys of AnyMap, which the property excludes (comparable keys)."
 ],
 "C10": [
  "proved",
  "C10_forEach_delete_panics is the negative part of the statement, for every map with at least two entries."
 ],
 "C13": [
  "proved",
  "C13_any_map_json_false is the exception named in the statement."
 ],
 "C22": [
  "partial",
  "As titled it is false of the code: C22_negative_false gives a wrong value for every negative integer. C22_unsigned_value_partial is the part that holds, C22_negative_wraps the exact behaviour otherwise."
 ],
 "C24": [
  "partial",
  "As titled it is false of the code: C24_any_example_false. The _partial theorem covers every other kind."
 ],
 "C25": [
  "partial",
  "As titled it is false of the code: C25_default_unset_false. The _partial theorem says where the entry goes."
 ],
 "C26": [
  "proved",
  "C26_lossless and C26_parsed_lossless are the statement; C26_read_back says exactly what comes back for a larger class; C26_mismatch_false shows the condition on the kind is needed."
 ],
 "C27": [
  "proved",
  "Shaped holds for every type any API can build, NoTypeKey excludes user-chosen extra facets named type; C27_parsed shows both for every parsed type."
 ],
 "C28": [
  "proved",
  "Clean excludes key clashes chosen by the user. Restoring is C26."
 ],
 "C29": [
  "partial",
  "As titled it is false of the code: C29_only_value_false, C29_type_example_false, C29_annotated_false. The _partial theorem is the part that holds."
 ],
 "C30": [
  "partial",
  "As titled it is false of the code: C30_facets_false shows facet definitions never survive, C30_unreadable_false that such types are unreadable. C26_read_back covers maps switched to plain output by the user."
 ],
 "C38": [
  "partial",
  "As titled it is false of the code: C38_written_empty_false. The _partial theorem is the part that holds: parsing keeps every documentation entry."
 ],
 "C39": [
  "partial",
  "As titled it is false of the code; the negative theorems show it for types, examples (C29_annotated_false), API documents and libraries."
 ],
 "C44": [
  "partial",
  "As titled it is false of the code: C44_annotation_types_false and C44_written_at_top_level prove the actual behaviour."
 ],
 "C32": [
  "proved",
  "C32_lossless and C32_parsed_lossless are the statement for the round-trippable fragment; C32_read_back says exactly what comes back for a larger class; C32_documentation_false shows why documentation is excluded."
 ],
 "C37": [
  "proved",
  "C37_single_as_string_false proves the negative part of the statement for every list."
 ],
 "C40": [
  "partial",
  "As titled it is false of the code, which the statement says: the _false theorems prove it for every section of API documents and libraries whose Unset installs an omap. C40_annotations is the one section for which it holds."
 ],
 "C41": [
  "proved",
  "CleanApi excludes user-chosen clashing keys; C41_clash_false shows it is needed."
 ],
 "C43": [
  "proved",
  "As C32, for libraries."
 ],
 "C48": [
  "proved",
  "The round-trippable fragment of the statement is TidyApi, TidyLib, Tidy: the type names the kind and unknown keys mean nothing else. C48_type_false and C48_library_false show the conditions are needed."
 ],
 "C21": [
  "partial",
  "False as titled, and proved false: an empty-string key in an API document, a library, an extended type or an example panics, and so does a property declared nil or as an include. Proved in full: every panic has one of these causes at a place the theorems name exactly, a tree without them never panics, a tree with one is never accepted, and acceptable entries followed by a cause do panic. C87 gives the exact condition."
 ],
 "C51": [
  "proved",
  "The facets are the rows of the PlainFacet table; a list or bound that depends on the kind has one row per kind."
 ],
 "C52": [
  "proved",
  "properties is covered by C47, enum by C23, xml by C31, unknown entries by C18."
 ],
 "C53": [
  "proved",
  "The five XML settings themselves are covered by C31; here the extra entries."
 ],
 "C54": [
  "proved",
  "TypeOk is stated over the node tree alone, through TypePos, the kind and one condition per facet."
 ],
 "C55": [
  "proved",
  "C55_same_entries covers libraries as well."
 ],
 "C56": [
  "proved",
  ""
 ],
 "C57": [
  "proved",
  "typeAsked and typeEdited are the specification: which call is about which facet and what it asks for."
 ],
 "C58": [
  "proved",
  "C58_built_lossless and C58_settings_survive are the statement, C58_live_maps shows that adding entries through live maps is covered, C58_union_false why union is excluded."
 ],
 "C59": [
  "proved",
  "The two C59_unset_then_add theorems are the statement; the C59_ordered theorems are the same for any type with such a map."
 ],
 "C60": [
  "proved",
  "Acceptable arguments are spelled out in GoodApiCall, LosslessApiCall and their library versions; C40 and C44 show why the Unset calls and library annotation types are excluded."
 ],
 "C61": [
  "proved",
  "C61_api_merge and C61_library_merge give the result on every state and node; C61_lookup says what a name means afterwards."
 ],
 "C62": [
  "proved",
  "Verif/Doc/Live.lean models the object in place; C62_*_refines ties it to the other model. States inside dropped temporary objects are not observable and not modelled."
 ],
 "C63": [
  "proved",
  "The YAML encoder is a parameter; that the head comment comes first (HeadFirst) is a hypothesis."
 ],
 "C64": [
  "proved",
  "C64_written needs no hypothesis; the exact lists need distinct keys (Clean), which C64_parsed gives for every string-keyed mapping that is accepted."
 ],
 "C65": [
  "proved",
  "A defect of the code, stated as such: XML has no YAML marshaler (MarshalRAML is called by nothing), so it is written as an empty mapping. C65_xml_reset needs string extra keys, because facets are matched by the key's text."
 ],
 "C66": [
  "proved",
  "The converse of C26/C32/C43: Writable, WritableApi and WritableLib are necessary as well as sufficient for regular objects. Libraries with annotation types are left out (they are read into the annotations, C44)."
 ],
 "C67": [
  "proved",
  "The lists of formats have no effect on the outcome; C67_checked_false records that they are not enforced."
 ],
 "C68": [
  "proved",
  "With a line break in the module type the first line no longer decides: C68_line_break_false."
 ],
 "C69": [
  "proved",
  "PropertySortingHat is not called by the rest of the package; properties of objects are read as described in C52 and C54."
 ],
 "C70": [
  "proved",
  "The stack is modelled as a number of nested calls; Go's stack limit in bytes is not."
 ],
 "C71": [
  "proved",
  ""
 ],
 "C72": [
  "proved",
  "Examples beside the theorems show the sharing through a concrete program."
 ],
 "C73": [
  "proved",
  ""
 ],
 "C74": [
  "proved",
  ""
 ],
 "C75": [
  "proved",
  ""
 ],
 "C76": [
  "proved",
  ""
 ],
 "C77": [
  "proved",
  ""
 ],
 "C78": [
  "proved",
  ""
 ],
 "C79": [
  "proved",
  ""
 ],
 "C80": [
  "proved",
  ""
 ],
 "C81": [
  "proved",
  ""
 ],
 "C82": [
  "proved",
  ""
 ],
 "C83": [
  "proved",
  "The sharing is a defect of the code and stated as such (C83_clobber). Objects are numbered fields here; the heap of layer 3 keeps slices as values."
 ],
 "C84": [
  "proved",
  ""
 ],
 "C85": [
  "proved",
  "Calls are atomic in the model; data races inside calls are not modelled."
 ],
 "C86": [
  "proved",
  ""
 ],
 "C87": [
  "proved",
  ""
 ],
 "C88": [
  "proved",
  ""
 ],
 "C89": [
  "proved",
  ""
 ],
 "C90": [
  "proved",
  ""
 ],
 "C91": [
  "proved",
  ""
 ],
 "C92": [
  "proved",
  ""
 ],
 "C93": [
  "proved",
  ""
 ],
 "C94": [
  "proved",
  ""
 ],
 "C95": [
  "proved",
  ""
 ],
 "C96": [
  "proved",
  ""
 ],
 "C97": [
  "proved",
  ""
 ],
 "C98": [
  "proved",
  ""
 ],
 "C99": [
  "proved",
  ""
 ],
 "C100": [
  "proved",
  ""
 ],
 "C101": [
  "proved",
  ""
 ],
 "C102": [
  "proved",
  ""
 ],
 "C103": [
  "proved",
  ""
 ],
 "C104": [
  "proved",
  ""
 ],
 "C105": [
  "proved",
  ""
 ],
 "C106": [
  "proved",
  ""
 ],
 "C107": [
  "proved",
  ""
 ],
 "C108": [
  "proved",
  ""
 ],
 "C109": [
  "proved",
  ""
 ],
 "C110": [
  "proved",
  ""
 ],
 "C111": [
  "proved",
  ""
 ],
 "C112": [
  "proved",
  ""
 ],
 "C113": [
  "proved",
  ""
 ]
}