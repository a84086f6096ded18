{"claims": [
 {"property": "C01", "status": "proved", "theorems": ["MshIO.C01_binary41", "MshIO.C01_binary41_tags", "MshIO.C01_binary41_exact"], "note": "General form states exactly what changes (entry tags through 32 bits, header reals through text); C01_binary41_exact is the plain round trip."},
 {"property": "C02", "status": "proved", "theorems": ["MshIO.C02_ascii41", "MshIO.C02_ascii41_exact"], "note": ""},
 {"property": "C03", "status": "proved", "theorems": ["MshIO.C03_binary22", "MshIO.C03_binary22_any", "MshIO.C03_convert22_lists", "MshIO.C03_empty_block_counterexample"], "note": "The theorem needs element blocks without zero elements: the counterexample shows that a trailing empty block makes the sections behind it disappear."},
 {"property": "C04", "status": "proved", "theorems": ["MshIO.C04_ascii22", "MshIO.C03_convert22_lists"], "note": ""},
 {"property": "C05", "status": "proved", "theorems": ["MshIO.C05_text_error", "MshIO.C05_text_error_unit", "MshIO.C05_default_always_readable", "MshIO.C05_readable_finite", "MshIO.C05_readable_of_le", "MshIO.C05_sign_and_zero"], "note": ""},
 {"property": "C06", "status": "proved", "theorems": ["MshIO.C06_second_generation", "MshIO.C06_second_generation_17", "MshIO.C06_subnormal_counterexample"], "note": ""},
 {"property": "C07", "status": "proved", "theorems": ["MshIO.C07_lossless", "MshIO.C07_ascii41_lossless", "MshIO.C07_sixteen_not_enough"], "note": ""},
 {"property": "C08", "status": "proved", "theorems": ["MshIO.C08_integers", "MshIO.C08_integers_default", "MshIO.C08_short_decimals", "MshIO.C08_sharp"], "note": ""},
 {"property": "C09", "status": "proved", "theorems": ["MshIO.C09_any_names", "MshIO.C09_binary41", "MshIO.C09_ascii41", "MshIO.C09_binary22", "MshIO.C09_ascii22"], "note": ""},
 {"property": "C10", "status": "proved", "theorems": ["MshIO.C10_element_runs"], "note": ""},
 {"property": "C11", "status": "proved", "theorems": ["MshIO.C11_ranges"], "note": ""},
 {"property": "C12", "status": "proved", "theorems": ["MshIO.C12_node_classification"], "note": ""},
 {"property": "C13", "status": "proved", "theorems": ["MshIO.C13_entities"], "note": ""},
 {"property": "C14", "status": "proved", "theorems": ["MshIO.C14_binary22_stable", "MshIO.C14_ascii22_stable"], "note": ""},
 {"property": "C15", "status": "proved", "theorems": ["MshIO.C15_any22_to_41_binary", "MshIO.C15_any22_to_41_ascii", "MshIO.C15_any22_to_22_binary", "MshIO.C15_any22_to_22_ascii", "MshIO.C15_22_to_41_binary"], "note": "The any22 theorems are about arbitrary v2.2 files of nodes and elements, C15_22_to_41_binary about files written by the library, with names and data."},
 {"property": "C16", "status": "proved", "theorems": ["MshIO.C16_wrap32", "MshIO.C01_binary41", "MshIO.C03_binary22_any"], "note": "C16_wrap32 says which tags survive wrap32; the other two say that wrap32 is what binary files do to tags (v4.1: data entry tags only)."},
 {"property": "C17", "status": "proved", "theorems": ["MshIO.C17_shape", "MshIO.C17_fits", "MshIO.C17_nodes22", "MshIO.C17_ok", "MshIO.C17_wraps"], "note": "C17_shape holds for every byte string; C17_wraps shows that 'modulo 2^64' cannot be dropped."},
 {"property": "C18", "status": "proved", "theorems": ["MshIO.C18_saves", "MshIO.C18_binary41", "MshIO.C18_condition", "MshIO.C18_again_binary41", "MshIO.C18_again_ascii41"], "note": "C18_condition shows that the condition on products cannot be dropped."},
 {"property": "C19", "status": "proved", "theorems": ["MshIO.C19_loaded22_valid"], "note": ""},
 {"property": "C20", "status": "partial", "theorems": ["MshIO.C20_partial", "MshIO.C20_false", "MshIO.C20_hang_iff", "MshIO.load_hang_iff_endless", "MshIO.forwardTo_hang_iff_endless", "MshIO.load_rounds_irrelevant", "MshIO.C20_sections", "MshIO.C20_sections_needed", "MshIO.C20_section", "MshIO.C20_exact"], "note": "As stated the property is false: C20_false exhibits a file on which the main loop never exits. C20_hang_iff characterises the hanging streams exactly; C20_partial gives termination for inputs that never leave the stream failed without end-of-file. load_hang_iff_endless ties the model's hang outcome to an infinite sequence of loop iterations. C20_sections says which sections can make load_msh hang, C20_sections_needed gives a hanging file for each. C20_exact says exactly which files hang, by the bytes of their sections (SectionEnds in Spec/Endings.lean)."},
 {"property": "C21", "status": "proved", "theorems": ["MshIO.C21_truncation"], "note": ""},
 {"property": "C22", "status": "proved", "theorems": ["MshIO.C22_failed_stream", "MshIO.C22_eof_stream"], "note": ""},
 {"property": "C23", "status": "proved", "theorems": ["MshIO.C23_unknown_section"], "note": ""},
 {"property": "C24", "status": "proved", "theorems": ["MshIO.C24_text_between"], "note": ""},
 {"property": "C25", "status": "proved", "theorems": ["MshIO.C25_section_order", "MshIO.C25_permutation"], "note": ""},
 {"property": "C26", "status": "proved", "theorems": ["MshIO.C26_version"], "note": ""},
 {"property": "C27", "status": "proved", "theorems": ["MshIO.C27_data_size", "MshIO.C27_data_size_22"], "note": ""},
 {"property": "C28", "status": "proved", "theorems": ["MshIO.C28_byte_order"], "note": ""},
 {"property": "C29", "status": "proved", "theorems": ["MshIO.C29_entities_22"], "note": ""},
 {"property": "C30", "status": "proved", "theorems": ["MshIO.C30_int_tags"], "note": ""},
 {"property": "C31", "status": "proved", "theorems": ["MshIO.C31_rounded41", "MshIO.C31_rounded22", "MshIO.C31_exact41", "MshIO.C31_unreadable41", "MshIO.C31_unreadable22"], "note": ""},
 {"property": "C32", "status": "proved", "theorems": ["MshIO.C32_tables", "MshIO.C32_readme", "MshIO.C32_supported"], "note": "C32_readme derives the README's numbers from the families and orders of the MSH element definitions."},
 {"property": "C33", "status": "proved", "theorems": ["MshIO.C33_save_rejects", "MshIO.C33_save_binary41", "MshIO.C33_load_ascii41", "MshIO.C33_load_binary41", "MshIO.C33_load_ascii22", "MshIO.C33_load_binary22"], "note": "Saving 4.1 binary does not check the type (C33_save_binary41)."},
 {"property": "C34", "status": "proved", "theorems": ["MshIO.C34_accepts_iff", "MshIO.C34_rejects", "MshIO.C34_undefined_iff", "MshIO.C34_decides", "MshIO.C34_node_data"], "note": ""},
 {"property": "C35", "status": "proved", "theorems": ["MshIO.C35_false", "MshIO.C35_saves"], "note": "The safety claim is refuted by C35_false; C35_saves is the corrected statement."},
 {"property": "C36", "status": "partial", "theorems": ["MshIO.C36_false", "MshIO.C36_ascii41_partial", "MshIO.C36_binary41_partial", "MshIO.C36_hazards_ascii41", "MshIO.C36_hazards_binary41", "MshIO.C36_hazards_22", "MshIO.C36_where", "MshIO.C36_table22", "MshIO.C36_ascii22_partial", "MshIO.C36_ascii22_inside_partial", "MshIO.C36_binary22_partial"], "note": "Absence of undefined behaviour is false for this code, in every build (C36_false). The _partial theorems say exactly when loading is undefined, for 4.1 and 2.2 files in text and binary, however malformed or truncated, that do not use the features named in Harmless / HarmlessBinary / Harmless22 / Harmless22b: counters missing (CounterMissing), binary data cut off (DataCutOff), binary entities cut off (EntitiesCutOff), binary 4.1 nodes whose dimension overflows (NodesOverflow), 2.2 nodes and elements cut off (NodesUndefined, ElementsUndefined), and the table of node tags, of which C36_table22 speaks for every 2.2 file. The C36_hazards theorems show for each excluded feature a file on which loading is undefined. Missing: a characterisation of the undefined files among those using the excluded features."},
 {"property": "C37", "status": "proved", "theorems": ["MshIO.C37_nodes41", "MshIO.C37_nodes22", "MshIO.C37_ascii41_iff", "MshIO.C37_ascii41_fruitless", "MshIO.C37_ascii22_fruitless"], "note": "C37_nodes41 and C37_nodes22 give the exact outcome for a bad coordinate; the others cover a bad number anywhere in the file."},
 {"property": "C38", "status": "proved", "theorems": ["MshIO.C38_outcome", "MshIO.C38_safe", "MshIO.C38_saves"], "note": "C38_outcome gives the exact outcome."},
 {"property": "C39", "status": "proved", "theorems": ["MshIO.C39_ascii41", "MshIO.C39_ascii22", "MshIO.C39_ascii41_reader", "MshIO.C39_ascii22_reader", "MshIO.C39_binary_counterexample"], "note": "C39_binary_counterexample shows that the claim does not extend to binary files."},
 {"property": "C40", "status": "proved", "theorems": ["MshIO.C40_data_order", "MshIO.C40_data_count"], "note": ""},
 {"property": "C41", "status": "proved", "theorems": ["MshIO.C41_whitespace"], "note": ""},
 {"property": "C42", "status": "proved", "theorems": ["MshIO.C42_sections"], "note": ""},
 {"property": "C43", "status": "proved", "theorems": ["MshIO.C43_open", "MshIO.C43_opened"], "note": ""},
 {"property": "C44", "status": "proved", "theorems": ["MshIO.C44_default"], "note": ""},
 {"property": "C45", "status": "proved", "theorems": ["MshIO.C45_ascii41_written", "MshIO.C45_ascii41_read", "MshIO.C45_ascii41_read_exact", "MshIO.C45_empty_entry_counterexample"], "note": "The layout is Spec/Format.lean (lines41). C45_empty_entry_counterexample: a data entry without values does not get its own line; such files are excluded from C45_ascii41_written and included in the reading theorems."},
 {"property": "C46", "status": "proved", "theorems": ["MshIO.C46_binary41_written", "MshIO.C46_binary41_read", "MshIO.C46_binary41_read_exact"], "note": "The layout is Spec/Format.lean (sections41)."},
 {"property": "C47", "status": "proved", "theorems": ["MshIO.C47_ascii22_written", "MshIO.C47_ascii22_read", "MshIO.C47_binary22_written", "MshIO.C47_binary22_read"], "note": "The layout is Spec/Format.lean (lines22, sections22)."},
 {"property": "C48", "status": "proved", "theorems": ["MshIO.C48_number_read", "MshIO.C48_overflow", "MshIO.C48_nearest_unique", "MshIO.C48_exact", "MshIO.C48_normal_value", "MshIO.C48_subnormal_value", "MshIO.C48_reread", "MshIO.C48_size_read", "MshIO.C48_size_minus", "MshIO.C48_size_overflow", "MshIO.C48_int_read", "MshIO.C48_int_overflow", "MshIO.C48_size_written", "MshIO.C48_int_written"], "note": "The specification is Spec/Numeral.lean (values of numerals, nearest double)."},
 {"property": "C49", "status": "proved", "theorems": ["MshIO.C49_general_printed", "MshIO.C49_general_unique"], "note": "The specification is PrintsGeneral in Spec/Numeral.lean."},
 {"property": "C50", "status": "proved", "theorems": ["MshIO.C50_fixed_printed", "MshIO.C50_fixed_unique", "MshIO.C50_fixed_error", "MshIO.C50_fixed_exact", "MshIO.C50_fixed_counterexample", "MshIO.C50_scientific_printed", "MshIO.C50_scientific_unique", "MshIO.C50_scientific_reread", "MshIO.C50_scientific_lossless", "MshIO.C50_scientific_fifteen"], "note": ""},
 {"property": "C51", "status": "proved", "theorems": ["MshIO.C51_quoted_written", "MshIO.C51_spelling", "MshIO.C51_quoted_read", "MshIO.C51_bare_read", "MshIO.C51_open_read", "MshIO.C51_section_read", "MshIO.C51_open_section"], "note": ""},
 {"property": "C52", "status": "proved", "theorems": ["MshIO.C52_inspect", "MshIO.C52_small_int", "MshIO.C52_int_tags", "MshIO.C52_unwritable", "MshIO.C52_usage", "MshIO.C52_not_loaded", "MshIO.C52_example"], "note": ""},
 {"property": "C53", "status": "proved", "theorems": ["MshIO.C53_columns", "MshIO.C53_undefined", "MshIO.C53_misaligned", "MshIO.C53_point", "MshIO.C53_large_tag"], "note": "The last three are concrete files."},
 {"property": "C54", "status": "proved", "theorems": ["MshIO.C54_stable_default", "MshIO.C54_stable_lossless", "MshIO.C54_ascii41", "MshIO.C54_binary41", "MshIO.C54_ascii22", "MshIO.C54_binary22"], "note": "For version 2.2 binary files the theorem is an equivalence."},
 {"property": "C55", "status": "proved", "theorems": ["MshIO.C55_cut", "MshIO.C55_saved_text", "MshIO.C55_saved_binary", "MshIO.C55_release", "MshIO.C55_unchecked"], "note": "C55_release and C55_unchecked are concrete files showing that the conditions cannot be dropped. The two theorems about saved files are for builds without the extension."},
 {"property": "C56", "status": "proved", "theorems": ["MshIO.C56_replaced", "MshIO.C56_last", "MshIO.C56_added", "MshIO.C56_nodes22", "MshIO.C56_elements22", "MshIO.C56_binary22_count"], "note": "C56_binary22_count is a concrete file on which the number of elements is not summed up."},
 {"property": "C57", "status": "proved", "theorems": ["MshIO.C57_after_name", "MshIO.C57_kept", "MshIO.C57_after_count", "MshIO.C57_after_count_kept", "MshIO.C57_data", "MshIO.C57_data_kept", "MshIO.C57_curve", "MshIO.C57_curve_kept", "MshIO.C57_patch", "MshIO.C57_patch_kept", "MshIO.C57_curves_read", "MshIO.C57_patches_read", "MshIO.C57_marker", "MshIO.C57_crlf"], "note": "C57_crlf is a concrete file showing that only one character is skipped. For the sections of the extension (Props/WhiteSplines), C57_curves_read and C57_patches_read pin down that exactly one character is skipped for every member."},
 {"property": "C58", "status": "proved", "theorems": ["MshIO.C58_section", "MshIO.C58_undefined", "MshIO.C58_format_first"], "note": "The conditions are SectionUndefined and TagOutside in Spec/Undefined.lean, on top of Spec/Text.lean (how far reading numbers and strings gets) and Spec/Hazards.lean (binary data). C58_undefined names the model of the post-processing itself in its last clause; C58_format_first replaces it unless a $MeshFormat follows nodes or elements."},
 {"property": "C59", "status": "proved", "theorems": ["MshIO.C59_save_ends", "MshIO.C59_outcomes", "MshIO.C59_text41", "MshIO.C59_validated"], "note": "The specification is saveEnds in Spec/SaveEnds.lean; C59_text41 and C59_validated are readable special cases."},
 {"property": "C60", "status": "proved", "theorems": ["MshIO.C60_bounded", "MshIO.C60_overrun", "MshIO.C60_checked", "MshIO.C60_release_false", "MshIO.C60_elements22_false"], "note": "C60_release_false and C60_elements22_false show that the hypotheses of the other theorems are needed."},
 {"property": "C61", "status": "proved", "theorems": ["MshIO.C61_assertions", "MshIO.C61_memory", "MshIO.C61_format", "MshIO.C61_loads", "MshIO.C61_save", "MshIO.C61_save_memory", "MshIO.C61_reverse_false"], "note": "C61_reverse_false is a concrete file showing that C61_loads has no converse."},
 {"property": "C62", "status": "proved", "theorems": ["MshIO.C62_throws", "MshIO.C62_kinds", "MshIO.C62_release", "MshIO.C62_unsupported", "MshIO.C62_invalid"], "note": "The table is sectionThrows in Spec/Throws.lean; concrete files show that every entry of it occurs."},
 {"property": "C63", "status": "proved", "theorems": ["MshIO.C63_rejected", "MshIO.C63_accepted", "MshIO.C63_apart"], "note": "The condition is SectionRejected in Spec/Rejected.lean; 57 <= maxCount says that a vector can hold the nodes of one element."},
 {"property": "C64", "status": "proved", "theorems": ["MshIO.C64_section_order", "MshIO.C64_permutation"], "note": ""},
 {"property": "C65", "status": "proved", "theorems": ["MshIO.C65_effect", "MshIO.C65_redundant", "MshIO.C65_default", "MshIO.C65_last"], "note": ""},
 {"property": "C66", "status": "proved", "theorems": ["MshIO.C66_whole_stream", "MshIO.C66_together"], "note": ""},
 {"property": "C67", "status": "proved", "theorems": ["MshIO.C67_text41", "MshIO.C67_binary41", "MshIO.C67_text22", "MshIO.C67_binary22", "MshIO.C67_binary41_exact", "MshIO.C67_text41_exact", "MshIO.C67_formats"], "note": "The hypotheses are those of the round trips C01 to C04, with text that is stable (C54)."},
 {"property": "C68", "status": "proved", "theorems": ["MshIO.C68_section", "MshIO.C68_stops", "MshIO.C68_format_first", "MshIO.C68_builds"], "note": "The conditions are SectionEnds in Spec/Endings.lean, on top of Spec/Text.lean. C68_stops names the model of the post-processing in its last clause; C68_format_first removes it unless a $MeshFormat follows nodes or elements, and an example shows that this is needed."},
 {"property": "C69", "status": "proved", "theorems": ["MshIO.C69_any_spelling", "MshIO.C69_unambiguous"], "note": "Spec/Spelling.lean says which text files describe a mesh, from the items of each section and the ways to spell an item."},
 {"property": "C70", "status": "proved", "theorems": ["MshIO.C70_any_spelling", "MshIO.C70_unique"], "note": "Spec/Spelling22.lean: the items of nodes and elements; the rest is Spec/Spelling.lean, the grouping Spec/Mesh22.lean."},
 {"property": "C71", "status": "proved", "theorems": ["MshIO.C71_any_program", "MshIO.C71_text_or_binary"], "note": "Spec/Pieces.lean says which binary files describe a mesh, from the pieces of each section and the ways to write pieces one after the other."},
 {"property": "C72", "status": "proved", "theorems": ["MshIO.C72_any_program", "MshIO.C72_text_or_binary"], "note": "Spec/Pieces22.lean: the pieces of header, nodes and elements of version 2.2; the rest is Spec/Pieces.lean, the mesh that of C70."},
 {"property": "C73", "status": "proved", "theorems": ["MshIO.C73_ends_the_same", "MshIO.C73_unnoticed", "MshIO.C73_enough", "MshIO.C73_stream_tells", "MshIO.C73_bad_stream", "MshIO.C73_reload_text", "MshIO.C73_reload_binary"], "note": "Model/Device.lean: save_msh on a stream whose device takes a limited number of bytes."},
 {"property": "C74", "status": "proved", "theorems": ["MshIO.C74_same", "MshIO.C74_never_returns", "MshIO.C74_rounds", "MshIO.C74_directory", "MshIO.C74_loadable", "MshIO.C74_exact", "MshIO.C74_as_read"], "note": "Model/Broken.lean: load_msh on a stream whose device fails; C74_same relates it to the first model."},
 {"property": "C75", "status": "proved", "theorems": ["MshIO.C75_section", "MshIO.C75_exhausted", "MshIO.C75_loads", "MshIO.C75_version41"], "note": "Which vectors can be allocated is the parameter maxCount of the build, at least 57."},
 {"property": "C76", "status": "proved", "theorems": ["MshIO.C76_after", "MshIO.C76_loads", "MshIO.C76_result", "MshIO.C76_exhausted"], "note": "Files in which the header comes before nodes and elements (FormatFirst); C75 covers the others up to regrouping."},
 {"property": "C77", "status": "proved", "theorems": ["MshIO.C77_same_result", "MshIO.C77_bound", "MshIO.C77_exact", "MshIO.C77_end", "MshIO.C77_lines", "MshIO.C77_readable", "MshIO.C77_insert", "MshIO.C77_between", "MshIO.C77_text41", "MshIO.C77_binary41", "MshIO.C77_text22", "MshIO.C77_binary22", "MshIO.C77_saved_binary41", "MshIO.C77_saved_ascii41", "MshIO.C77_saved_binary22", "MshIO.C77_saved_ascii22", "MshIO.C77_extension_silent"], "note": "std::cerr is assumed to take every byte."},
 {"property": "C78", "status": "proved", "theorems": ["MshIO.C78_cut", "MshIO.C78_between_words", "MshIO.C78_silent"], "note": "std::cerr is assumed to take every byte."},
 {"property": "C79", "status": "proved", "theorems": ["MshIO.C79_decodes", "MshIO.C79_spec_raises", "MshIO.C79_format_raises", "MshIO.C79_group_raises", "MshIO.C79_others", "MshIO.C79_loaded_raises"], "note": "nanobind and CPython are represented by strict UTF-8 decoding and the repr of a list."},
 {"property": "C80", "status": "proved", "theorems": ["MshIO.C80_shown", "MshIO.C80_faithful", "MshIO.C80_ambiguous", "MshIO.C80_sized", "MshIO.C80_roundtrip_ascii", "MshIO.C80_roundtrip_binary", "MshIO.C80_point", "MshIO.C80_point_ambiguous"], "note": "std::to_string of a double is printf's %f; memory is not exhausted."},
 {"property": "C81", "status": "proved", "theorems": ["MshIO.C81_nodeBlock", "MshIO.C81_nodes", "MshIO.C81_elementBlock", "MshIO.C81_elements", "MshIO.C81_dataHeader", "MshIO.C81_dataEntry", "MshIO.C81_entities", "MshIO.C81_format", "MshIO.C81_group", "MshIO.C81_point", "MshIO.C81_box", "MshIO.C81_data", "MshIO.C81_spec"], "note": "std::to_string of a double is printf's %f."},
 {"property": "C82", "status": "proved", "theorems": ["MshIO.C82_same_outcome", "MshIO.C82_message_iff", "MshIO.C82_one_message", "MshIO.C82_valid_silent", "MshIO.C82_invalid_told"], "note": ""},
 {"property": "C83", "status": "proved", "theorems": ["MshIO.C83_same_outcome", "MshIO.C83_message_iff", "MshIO.C83_rejected_iff", "MshIO.C83_one_message", "MshIO.C83_file"], "note": "The text is that of load_mesh_format; the loop of load_msh passes exceptions on unchanged."}
]}
