{"id": "C01", "title": "Binary v4.1 files round-trip exactly", "statement": "If a spec with version 4.1, file_type 1, data_size 8 has counters that agree with its vectors and data tags below 2^31, then save_msh succeeds and load_msh of the produced bytes returns the same spec bit for bit: every node tag, coordinate (any bit pattern, NaN included), element, entity, physical group, data entry, curve and patch. The only changes are that the real_tags of data headers are stored as text (see C31) and that the counters of an absent $Nodes/$Elements section come back as defaults.", "quantifier": "all specs of version 4.1/binary meeting the stated consistency conditions, both assert settings, with and without the nanospline extension, every stream precision", "why_tests_cant": "A test fixes one mesh; the claim is about every mesh (any number of blocks, any tags, any bit pattern in the doubles), including payload bytes that happen to look like markers or white space.", "anchors": ["src/save_msh.cpp: save_msh", "src/load_msh.cpp: load_msh", "src/save_msh_nodes.cpp: v41::save_nodes_binary", "src/load_msh_nodes.cpp: v41::load_nodes_binary", "src/save_msh_elements.cpp", "src/load_msh_elements.cpp", "src/save_msh_entities.cpp", "src/load_msh_entities.cpp", "src/save_msh_data.cpp", "src/load_msh_data.cpp"]}
{"id": "C02", "title": "ASCII v4.1 files round-trip up to decimal rounding of doubles", "statement": "If a consistent spec has version 4.1, file_type 0, data_size 8 and only finite doubles that do not overflow when printed at the stream's precision, then save_msh succeeds and load_msh of the result returns the same spec with every double replaced by its printed-and-reparsed value; every integer, tag, name and counter is unchanged (absent $Nodes/$Elements come back as defaults).", "quantifier": "all specs of version 4.1/ASCII meeting the conditions, all build settings, all precisions", "why_tests_cant": "A test fixes one mesh; the claim is about every mesh (any number of blocks, any tags, any bit pattern in the doubles), including payload bytes that happen to look like markers or white space.", "anchors": ["src/save_msh.cpp: save_msh", "src/load_msh.cpp: load_msh", "src/save_msh_nodes.cpp: v41::save_nodes_ascii", "src/load_msh_nodes.cpp: v41::load_nodes_ascii", "src/save_msh_elements.cpp: v41::save_elements_ascii", "src/load_msh_elements.cpp: v41::load_elements_ascii"]}
{"id": "C03", "title": "Binary v2.2 round trip: what survives", "statement": "Saving a consistent spec as v2.2 binary and loading it back gives exactly: the same nodes in the same order with bit-identical first three coordinates, the same elements in the same order with their type, entity tag and node lists, the same physical group names and data sections; node and element blocks are regrouped as in C10-C12, the element dimension is the one the element type has, min/max tags are recomputed, and entities are lost. Holds when all tags are below 2^31 and every node used by an element exists in the node tag range.", "quantifier": "all specs of version 2.2/binary meeting the conditions", "why_tests_cant": "A test fixes one mesh; the claim is about every mesh (any number of blocks, any tags, any bit pattern in the doubles), including payload bytes that happen to look like markers or white space.", "anchors": ["src/save_msh_nodes.cpp: v22::save_nodes_binary", "src/load_msh_nodes.cpp: v22::load_nodes_binary", "src/save_msh_elements.cpp: v22::save_elements_binary", "src/load_msh_elements.cpp: v22::load_elements_binary", "src/load_msh_post_process.cpp"]}
{"id": "C04", "title": "ASCII v2.2 round trip: what survives", "statement": "As C03 for v2.2 ASCII, with every double replaced by its printed-and-reparsed value.", "quantifier": "all specs of version 2.2/ASCII meeting the conditions, all precisions", "why_tests_cant": "A test fixes one mesh; the claim is about every mesh (any number of blocks, any tags, any bit pattern in the doubles), including payload bytes that happen to look like markers or white space.", "anchors": ["src/save_msh_nodes.cpp: v22::save_nodes_ascii", "src/load_msh_nodes.cpp: v22::load_nodes_ascii", "src/save_msh_elements.cpp: v22::save_elements_ascii", "src/load_msh_elements.cpp: v22::load_elements_ascii", "src/load_msh_post_process.cpp"]}
{"id": "C05", "title": "Error bound of coordinates stored as text", "statement": "A finite double printed by save_msh at precision P and read back differs from the original by at most half a unit in the P-th significant decimal digit plus half a unit in the last binary place.", "quantifier": "all finite doubles, all precisions P >= 1, whenever the printed value does not overflow", "why_tests_cant": "There are 2^64 doubles and arbitrarily many precisions; a test samples a few.", "anchors": ["src/save_msh_nodes.cpp: out << block.data[..]", "src/load_msh_nodes.cpp: in >> block.data[..]"]}
{"id": "C06", "title": "Second-generation stability of ASCII files", "statement": "Loading an ASCII file written by MshIO and saving it again at the same default precision reproduces the same decimal numbers: print(parse(print(d))) = print(d) for every double in the normal range at precisions up to 15.", "quantifier": "all doubles of normal magnitude (no overflow on printing), all precisions 1..15", "why_tests_cant": "There are 2^64 doubles and arbitrarily many precisions; a test samples a few.", "anchors": ["src/save_msh_nodes.cpp", "src/load_msh_nodes.cpp"]}
{"id": "C07", "title": "ASCII is lossless at 17 digits", "statement": "If the user sets the output stream's precision to at least 17, every finite double survives save_msh (ASCII) followed by load_msh bit for bit, including -0.0 and subnormals.", "quantifier": "all finite doubles, all precisions >= 17", "why_tests_cant": "There are 2^64 doubles and arbitrarily many precisions; a test samples a few.", "anchors": ["src/save_msh_nodes.cpp", "src/load_msh_nodes.cpp"]}
{"id": "C08", "title": "Integers of at most P digits are exact in ASCII", "statement": "A double holding an integer of absolute value below 10^P (P <= 15) survives ASCII save and load at precision P unchanged; in particular |n| < 1000000 at the default precision.", "quantifier": "all integers with |n| < 10^P, all precisions 1 <= P <= 15", "why_tests_cant": "There are 2^64 doubles and arbitrarily many precisions; a test samples a few.", "anchors": ["src/save_msh_nodes.cpp", "src/load_msh_nodes.cpp"]}
{"id": "C09", "title": "Names and string tags may contain any bytes", "statement": "Physical group names and data string tags consisting of arbitrary bytes (quotes, backslashes, newlines, '$End...' text, NUL, empty) survive save_msh and load_msh unchanged in every format.", "quantifier": "all byte strings", "why_tests_cant": "Strings are unbounded and the interesting ones (embedded quotes, end markers, newlines) combine with surrounding sections.", "anchors": ["src/save_msh_physical_groups.cpp: save_physical_groups", "src/load_msh_physical_groups.cpp: load_physical_groups", "src/save_msh_data.cpp: save_data", "src/load_msh_data.cpp: load_data_header"]}
{"id": "C10", "title": "v2.2 elements are grouped into maximal runs, order preserved", "statement": "After loading a v2.2 file, the element blocks are exactly the maximal runs of consecutive file elements with equal (dimension, entity tag, type): concatenating the blocks gives the elements of the file in order, and neighbouring blocks differ in at least one of the three keys.", "quantifier": "all v2.2 element sequences", "why_tests_cant": "The grouping depends on the whole sequence of elements/nodes of an arbitrary file.", "anchors": ["src/load_msh_post_process.cpp: regroup_elements_into_blocks", "src/load_msh_elements.cpp: v22"]}
{"id": "C11", "title": "v2.2 tag ranges and counts are exact", "statement": "After loading a v2.2 mesh with one $Nodes and one $Elements section, num_nodes/num_elements are the numbers of nodes/elements, and min/max node and element tags are the minimum and maximum of the tags.", "quantifier": "all v2.2 node and element lists", "why_tests_cant": "The grouping depends on the whole sequence of elements/nodes of an arbitrary file.", "anchors": ["src/load_msh_nodes.cpp: v22", "src/load_msh_elements.cpp: v22"]}
{"id": "C12", "title": "v2.2 nodes are classified on the entity of the last element using them", "statement": "After loading a v2.2 file the node order is that of the file; nodes are grouped into maximal runs of equal classification; a node's block carries the dimension and entity tag of the last element in the file that references it, or (0,0) if none does.", "quantifier": "all v2.2 node and element lists whose element nodes lie in the node tag range", "why_tests_cant": "The grouping depends on the whole sequence of elements/nodes of an arbitrary file.", "anchors": ["src/load_msh_post_process.cpp: regroup_nodes_into_blocks"]}
{"id": "C13", "title": "v2.2 physical tags become entities", "statement": "After loading a v2.2 $Elements section the created entities of dimension d are exactly the entity tags (second element tag) of the elements of that dimension, each once, in increasing order, each carrying exactly the set of physical tags (first element tag) seen with it, in increasing order without duplicates.", "quantifier": "all v2.2 element lists", "why_tests_cant": "The grouping depends on the whole sequence of elements/nodes of an arbitrary file.", "anchors": ["src/load_msh_elements.cpp: create_entities", "src/load_msh_elements.cpp: v22::load_elements_ascii", "src/load_msh_elements.cpp: v22::load_elements_binary"]}
{"id": "C14", "title": "A loaded v2.2 mesh is a fixed point", "statement": "Once a v2.2 spec is in the form load_msh produces (regrouped blocks, recomputed ranges, no entities), saving and loading it again in binary returns the identical spec; save-load is idempotent.", "quantifier": "all v2.2 specs meeting C03's conditions", "why_tests_cant": "A test fixes one mesh; the claim is about every mesh (any number of blocks, any tags, any bit pattern in the doubles), including payload bytes that happen to look like markers or white space.", "anchors": ["src/load_msh_post_process.cpp", "src/save_msh.cpp", "src/load_msh.cpp"]}
{"id": "C15", "title": "Format conversion keeps the mesh", "statement": "Loading a v2.2 file, switching version to 4.1 (data_size 8) and/or toggling file_type, saving and loading again keeps every node, element, physical group and data entry (coordinates exactly in binary, rounded in ASCII). Converting to 4.1 also keeps the entities with their physical tags; staying in version 2.2 loses them, because save_msh does not write them there.", "quantifier": "all specs obtained from loading v2.2 data meeting C03's conditions", "why_tests_cant": "A test fixes one mesh; the claim is about every mesh (any number of blocks, any tags, any bit pattern in the doubles), including payload bytes that happen to look like markers or white space.", "anchors": ["src/save_msh.cpp", "src/load_msh.cpp"]}
{"id": "C16", "title": "32-bit tag limits of binary formats", "statement": "In v2.2 binary files node, element and entity tags, and in every binary file data entry tags, survive exactly when below 2^31 or at least 2^64-2^31; every other tag is silently changed to the sign extension of its low 32 bits. v4.1 node and element tags survive for all 64-bit values.", "quantifier": "all 64-bit tags", "why_tests_cant": "The boundary depends on the value of every tag; tests use small tags.", "anchors": ["src/save_msh_data.cpp: save_data", "src/load_msh_data.cpp: load_data_entry", "src/save_msh_nodes.cpp: v22::save_nodes_binary", "src/save_msh_elements.cpp: v22::save_elements_binary"]}
{"id": "C17", "title": "Shape guarantee of loaded specs", "statement": "Whatever bytes are given, if load_msh returns, then the result is shaped consistently: num_entity_blocks equals the number of blocks for nodes and elements, every node block has num_nodes_in_block tags and the matching number of coordinates (mod 2^64), every element block has a supported element type and num_elements*(nodes+1) entries (mod 2^64).", "quantifier": "all byte strings", "why_tests_cant": "The input is an arbitrary byte string, including malformed, hostile and truncated files.", "anchors": ["src/load_msh.cpp: load_msh", "src/load_msh_nodes.cpp", "src/load_msh_elements.cpp", "src/load_msh_post_process.cpp"]}
{"id": "C18", "title": "What was loaded can be saved", "statement": "If load_msh returns a spec, then save_msh of that spec neither throws nor has undefined behaviour, provided the products of counts in it do not exceed 2^64.", "quantifier": "all byte strings for which load_msh returns", "why_tests_cant": "The input is an arbitrary byte string, including malformed, hostile and truncated files.", "anchors": ["src/save_msh.cpp: save_msh", "src/load_msh.cpp: load_msh"]}
{"id": "C19", "title": "Loaded v2.2 specs pass validate_spec", "statement": "A spec loaded from well-formed v2.2 data (at least one node and element, element nodes within the node tag range) is accepted by validate_spec.", "quantifier": "all v2.2 node and element lists meeting the conditions", "why_tests_cant": "The grouping depends on the whole sequence of elements/nodes of an arbitrary file.", "anchors": ["src/validate_spec.cpp: validate_spec", "src/load_msh_post_process.cpp"]}
{"id": "C20", "title": "load_msh terminates on every file?", "statement": "For every file load_msh either returns, throws, or aborts on an assertion. FALSE for this code: a number that fails to parse leaves the stream failed but not at end of file and the main loop spins forever. The proved statement characterises exactly when load_msh fails to return: iff at some round boundary (or inside forward_to) the stream is failed and not at end of file. In terms of sections: load_msh fails to return iff the main loop comes to a section whose reader leaves the stream failed before the end of the file, and only readers of certain sections can, depending on the build and the format; for each of them there is such a file. Which bytes they are is written down for every section, from the bytes that follow its name and what has been read before.", "quantifier": "all byte strings and all stream states", "why_tests_cant": "The input is an arbitrary byte string, including malformed, hostile and truncated files.", "anchors": ["src/load_msh.cpp: load_msh", "src/load_msh.cpp: forward_to"]}
{"id": "C21", "title": "Truncation never introduces an endless loop", "statement": "If load_msh does not hang on a file then it does not hang on any prefix of that file: cutting a file short at any byte can produce an exception, an assertion, garbage or undefined behaviour, but no new endless loop.", "quantifier": "all byte strings, all cut points", "why_tests_cant": "Every cut point of every file.", "anchors": ["src/load_msh.cpp: load_msh", "src/io_utils.cpp: eat_white_space"]}
{"id": "C22", "title": "A failed stream handed to load_msh never returns", "statement": "load_msh(std::istream&) given a stream in failed state that is not at end of file (for instance an ifstream that could not be opened) never returns; given a stream at end of file it returns a default spec.", "quantifier": "all stream states", "why_tests_cant": "Unit tests cannot observe non-termination.", "anchors": ["src/load_msh.cpp: load_msh(std::istream&)"]}
{"id": "C23", "title": "Unknown sections are ignored", "statement": "Inserting a section $X ... $EndX whose name is not one of the known ones between the sections of a file, with any body whose white-space separated words do not contain $EndX, does not change what load_msh returns.", "quantifier": "all unknown section names, all bodies, all preceding files that end at a section boundary, all following content", "why_tests_cant": "The input is an arbitrary byte string, including malformed, hostile and truncated files.", "anchors": ["src/load_msh.cpp: load_msh", "src/load_msh.cpp: forward_to"]}
{"id": "C24", "title": "Text between sections is ignored", "statement": "Words not starting with '$' between sections (comments, blank lines, carriage returns) do not change the result of load_msh.", "quantifier": "all such words and white space, all positions at section boundaries", "why_tests_cant": "The input is an arbitrary byte string, including malformed, hostile and truncated files.", "anchors": ["src/load_msh.cpp: load_msh"]}
{"id": "C25", "title": "Independent v4.1 sections may come in any order", "statement": "For a v4.1 file made of the header followed by $PhysicalNames, $Entities, $Nodes, $Elements, data and extension sections, swapping two neighbouring sections of different kinds does not change the loaded spec.", "quantifier": "all files made of well-formed sections, all permutations", "why_tests_cant": "Factorially many orders of arbitrary sections.", "anchors": ["src/load_msh.cpp: load_msh"]}
{"id": "C26", "title": "Unsupported versions are rejected", "statement": "A file whose $MeshFormat announces a version other than exactly 2.2 or 4.1 makes load_msh throw UnsupportedFeature, whatever follows.", "quantifier": "all version strings, all remaining content", "why_tests_cant": "The input is an arbitrary byte string, including malformed, hostile and truncated files.", "anchors": ["src/load_msh_format.cpp: load_mesh_format"]}
{"id": "C27", "title": "v4.1 data size must be 8", "statement": "A v4.1 file whose data size is not 8 makes load_msh throw UnsupportedFeature; v2.2 accepts any data size.", "quantifier": "all data sizes and remaining content", "why_tests_cant": "The input is an arbitrary byte string, including malformed, hostile and truncated files.", "anchors": ["src/load_msh_format.cpp: load_mesh_format"]}
{"id": "C28", "title": "Byte order marker is checked", "statement": "A file with non-zero file type whose marker (the four bytes after the white space that follows the data size) is not the little-endian integer 1 makes load_msh throw UnsupportedFeature; in particular big-endian files are rejected.", "quantifier": "all markers and remaining content", "why_tests_cant": "The input is an arbitrary byte string, including malformed, hostile and truncated files.", "anchors": ["src/load_msh_format.cpp: load_mesh_format"]}
{"id": "C29", "title": "$Entities is rejected in v2.2", "statement": "A v2.2 file containing an $Entities section after the header makes load_msh throw InvalidFormat.", "quantifier": "all v2.2 headers and remaining contents", "why_tests_cant": "The input is an arbitrary byte string, including malformed, hostile and truncated files.", "anchors": ["src/load_msh_entities.cpp: load_entities"]}
{"id": "C30", "title": "Data sections need three integer tags", "statement": "A data section with fewer than three integer tags makes load_msh throw InvalidFormat.", "quantifier": "all string and real tags, all integer tag lists shorter than three, any remaining content", "why_tests_cant": "The input is an arbitrary byte string, including malformed, hostile and truncated files.", "anchors": ["src/load_msh_data.cpp: load_data"]}
{"id": "C31", "title": "Data header reals are text even in binary files", "statement": "In binary files the real_tags of data headers go through decimal text, so they come back rounded to the stream's precision; at precision >= 17 they are exact. A non-finite real tag makes the written file unreadable.", "quantifier": "all doubles as real tags", "why_tests_cant": "There are 2^64 doubles and arbitrarily many precisions; a test samples a few.", "anchors": ["src/save_msh_data.cpp: save_data", "src/load_msh_data.cpp: load_data_header"]}
{"id": "C32", "title": "Element tables match the MSH definition", "statement": "Element types 1..31 have the node counts and dimensions of the MSH element definitions (README table), and every other type is unsupported.", "quantifier": "all 32-bit element types", "why_tests_cant": "2^32 inputs; complete finite table.", "anchors": ["src/element_utils.cpp: nodes_per_element", "src/element_utils.cpp: get_element_dim", "README.md"]}
{"id": "C33", "title": "Unsupported element types are rejected", "statement": "A v4.1 or v2.2 file with an element block/element of a type outside 1..31 makes load_msh throw UnsupportedFeature; save_msh throws UnsupportedFeature for such a block in all formats except v4.1 binary, which writes it.", "quantifier": "all specs containing an unsupported type in an otherwise consistent prefix", "why_tests_cant": "All blocks before the offending one are arbitrary.", "anchors": ["src/element_utils.cpp: assert_element_is_supported", "src/save_msh_elements.cpp", "src/load_msh_elements.cpp"]}
{"id": "C34", "title": "validate_spec accepts exactly the documented specs", "statement": "validate_spec returns normally iff block counts agree with the vectors, min <= max for node and element tags, every node block has as many tags as nodes, all in range, and 3 (or 3+dim when parametric) doubles per node, and every element block's data divides evenly and holds element tags/node tags in range; otherwise it throws CorruptData, except that an element block with zero elements or fewer entries than elements is undefined behaviour (division by zero).", "quantifier": "all specs", "why_tests_cant": "Iff over all specs of unbounded size.", "anchors": ["src/validate_spec.cpp: validate_spec"]}
{"id": "C35", "title": "validate_spec does not imply save_msh is safe", "statement": "FALSE as a safety claim: a spec accepted by validate_spec can make save_msh read out of bounds (element data size is not compared with the element type). Proved instead: accepted specs whose blocks additionally have n+1 entries per element and parametric in {0,1} are saved without undefined behaviour.", "quantifier": "all specs accepted by validate_spec", "why_tests_cant": "Unbounded specs.", "anchors": ["src/validate_spec.cpp: validate_spec", "src/save_msh_elements.cpp", "src/save_msh_nodes.cpp"]}
{"id": "C36", "title": "load_msh has no undefined behaviour on arbitrary files?", "statement": "FALSE for this code: an empty $PhysicalNames section at end of file reads an uninitialised counter; a v2.2 element referring to a node outside the tag range writes out of bounds; a v4.1 ASCII element count that overflows writes out of bounds. Proved: concrete witnesses; and for files of versions 4.1 and 2.2, in text and binary, however malformed or truncated, exactly when loading is undefined, outside a few excluded features. The reasons are: a section cut off before its counter; a binary data section cut off at certain places; with NDEBUG, binary entities cut off at certain places; in binary files of version 4.1 a block of nodes with parametric coordinates whose dimension exceeds INT_MAX - 3; in version 2.2 a tag outside the table of node tags; in binary files of version 2.2 a $Nodes or $Elements section whose data end at certain places or announce elements with 2^29 tags or more. Excluded are a second $MeshFormat section, incomplete entities in text, incomplete heads of data sections, malformed counters or first elements of version 2.2, and, in text files of version 4.1, numbers of ten or more digits before the decimal point.", "quantifier": "all byte strings", "why_tests_cant": "The input is an arbitrary byte string, including malformed, hostile and truncated files.", "anchors": ["src/load_msh_physical_groups.cpp: load_physical_groups", "src/load_msh_data.cpp: load_data", "src/load_msh_entities.cpp: load_entities_binary", "src/load_msh_post_process.cpp: regroup_nodes_into_blocks", "src/load_msh_elements.cpp: v41::load_elements_ascii", "src/load_msh_nodes.cpp: v41::load_nodes_binary"]}
{"id": "C37", "title": "Non-finite coordinates make ASCII files unreadable", "statement": "If any node coordinate is NaN or infinite, the ASCII file written by save_msh is never loaded successfully: load_msh of it aborts on an assertion or never returns.", "quantifier": "all specs with exactly consistent blocks and at least one non-finite coordinate", "why_tests_cant": "There are 2^64 doubles and arbitrarily many precisions; a test samples a few.", "anchors": ["src/save_msh_nodes.cpp: v41::save_nodes_ascii", "src/load_msh_nodes.cpp: v41::load_nodes_ascii", "src/load_msh.cpp: load_msh"]}
{"id": "C38", "title": "save_msh fails only for unsupported features", "statement": "save_msh on a spec whose vectors agree with its counters either succeeds or throws UnsupportedFeature/InvalidFormat for an unsupported version or element type; it never has undefined behaviour and never loops.", "quantifier": "all shape-consistent specs", "why_tests_cant": "Unbounded specs.", "anchors": ["src/save_msh.cpp: save_msh"]}
{"id": "C39", "title": "Extension sections are invisible to builds without the extension", "statement": "An ASCII file written by a build with the nanospline extension loads in a build without it to the same spec except that curves and patches are empty.", "quantifier": "all ASCII specs meeting C02's conditions", "why_tests_cant": "A test fixes one mesh; the claim is about every mesh (any number of blocks, any tags, any bit pattern in the doubles), including payload bytes that happen to look like markers or white space.", "anchors": ["src/load_msh_curves.cpp", "src/load_msh_patches.cpp", "src/save_msh.cpp"]}
{"id": "C40", "title": "Several data sections keep their order", "statement": "All $NodeData (resp. $ElementData, $ElementNodeData) sections of a file are appended in file order; n sections give n entries.", "quantifier": "all numbers and contents of data sections", "why_tests_cant": "Unbounded number of sections.", "anchors": ["src/load_msh_data.cpp: load_node_data", "src/save_msh_data.cpp: save_node_data"]}
{"id": "C41", "title": "White space between ASCII tokens is irrelevant", "statement": "In ASCII files any separator white space may be replaced by other non-empty white space (spaces, tabs, LF, CRLF) without changing the loaded spec.", "quantifier": "all ASCII v4.1 files written by save_msh, all white-space substitutions", "why_tests_cant": "The input is an arbitrary byte string, including malformed, hostile and truncated files.", "anchors": ["src/load_msh.cpp: load_msh"]}
{"id": "C42", "title": "Files end with a closed section; output is well bracketed", "statement": "When save_msh succeeds the output is a concatenation of sections $X newline ... $EndX newline in the fixed order MeshFormat, PhysicalNames, Entities, Nodes, Elements, NodeData*, ElementData*, ElementNodeData*, extension sections.", "quantifier": "all specs for which save_msh succeeds", "why_tests_cant": "Unbounded specs.", "anchors": ["src/save_msh.cpp: save_msh"]}
{"id": "C43", "title": "Opening failures are reported", "statement": "The file-name overloads throw std::runtime_error when the file cannot be opened and otherwise behave as the stream overloads.", "quantifier": "all specs and file contents", "why_tests_cant": "Follows from code for all contents.", "anchors": ["src/load_msh.cpp: load_msh(const std::string&)", "src/save_msh.cpp: save_msh(const std::string&, ...)"]}
{"id": "C44", "title": "The default spec round-trips in every mode", "statement": "A default-constructed MshSpec saves and loads to itself for every file_type in {0,1} and versions 4.1 and 2.2 with any precision and build setting.", "quantifier": "all build settings and precisions", "why_tests_cant": "Ranges over all configurations.", "anchors": ["src/save_msh.cpp", "src/load_msh.cpp"]}
{"id": "C45", "title": "Version 4.1 text files have the published layout", "statement": "save_msh in ASCII 4.1 writes exactly the lines prescribed by the MSH 4.1 format (order of sections, of fields within a line, of blocks, counts), one space between words, and load_msh reads every text file of that layout, however its words are separated and to however many digits its numbers are printed, as the mesh it describes.", "quantifier": "all consistent specs, all white space, all number formats of the writer that print decimal numerals", "why_tests_cant": "Round-trip tests cannot notice a field order or count that saver and loader both get wrong; examples from other programs cover finitely many meshes.", "anchors": ["src/save_msh*.cpp", "src/load_msh*.cpp"]}
{"id": "C46", "title": "Version 4.1 binary files have the published layout", "statement": "save_msh in binary 4.1 writes exactly the bytes prescribed by the MSH 4.1 format (little-endian, int and size_t fields in the right places), and load_msh reads every file made of sections of that layout, with or without white space before end markers and between sections as other programs write it, as the mesh it describes.", "quantifier": "all consistent specs, all white space around end markers", "why_tests_cant": "Round-trip tests cannot notice a field width or order that saver and loader both get wrong.", "anchors": ["src/save_msh*.cpp", "src/load_msh*.cpp"]}
{"id": "C47", "title": "Version 2.2 files have the published layout", "statement": "save_msh in version 2.2, ASCII and binary, writes exactly the prescribed lines or bytes, and load_msh reads every file of that layout as the nodes and elements it describes.", "quantifier": "all consistent specs, all white space, all number formats that print decimal numerals", "why_tests_cant": "As C45 and C46.", "anchors": ["src/save_msh*.cpp", "src/load_msh*.cpp", "src/load_msh_post_process.cpp"]}
{"id": "C48", "title": "A numeral is read as the nearest double, digits as the integer they denote", "statement": "Wherever a text file contains a decimal numeral (any sign, leading zeros, fraction, exponent), MshIO reads the double nearest to the number it stands for, ties to even, with its sign, and stops right behind it; a number too large fails. Digits are read as the integer they denote into int and size_t fields if it fits (a minus sign wraps for size_t), and fail if it does not. What is written for integers is their decimal digits without superfluous zeros.", "quantifier": "all decimal numerals of any length, all surrounding white space", "why_tests_cant": "There are infinitely many numerals; double rounding or a wrong tie shows up on very few of them.", "anchors": ["src/load_msh_nodes.cpp", "src/load_msh_entities.cpp", "src/load_msh_data.cpp"]}
{"id": "C49", "title": "A number is written as its nearest decimal", "statement": "With default stream flags and precision P every finite double in a text file is written as the decimal of P significant digits nearest to it, ties to the even digit, without superfluous zeros, in exponent notation exactly if the exponent is less than -4 or at least P; this determines the text.", "quantifier": "all doubles, all precisions", "why_tests_cant": "2^64 doubles times all precisions; rounding errors show up on few of them.", "anchors": ["src/save_msh_nodes.cpp", "src/save_msh_entities.cpp", "src/save_msh_data.cpp"]}
{"id": "C50", "title": "Other stream formats", "statement": "If the caller switches the output stream to std::fixed with precision P, every finite double is written as the nearest multiple of 10^-P, is readable, keeps its sign and comes back within 10^-P, exactly if it is such a multiple; with std::scientific what comes back is what precision P+1 of the default format gives, in particular precision 16 loses nothing. std::fixed is not lossless.", "quantifier": "all finite doubles, all precisions", "why_tests_cant": "The error bound is a statement about all doubles.", "anchors": ["src/save_msh.cpp", "include/mshio/mshio.h"]}
{"id": "C51", "title": "Names in files: quoting, bare words, missing quotes", "statement": "Physical names and string tags are written between double quotes with every double quote and backslash after a backslash. Reading accepts every such spelling (any character may be escaped) and also bare words; a $PhysicalNames section with names in any of these forms and any white space gives exactly its groups, replacing earlier ones. If the closing quote is missing the rest of the file is swallowed: debug builds abort, release builds load silently as if quote and section ended at the end of the file.", "quantifier": "all byte strings as names, all spellings, all files up to the section", "why_tests_cant": "Names are arbitrary byte strings and the forms other programs write are not known to the tests.", "anchors": ["src/load_msh_physical_groups.cpp", "src/save_msh_physical_groups.cpp", "src/load_msh_data.cpp"]}
{"id": "C52", "title": "msh_inspect shows the mesh", "statement": "For every file that loads (with sizes that do not wrap) and has parametric nodes at most on curves, the example program msh_inspect prints all entities, physical groups, nodes with all coordinates, elements with their nodes, and node and element data, in this order, in full, doubles with six significant digits, integer tags of at most six digits exactly; then it saves the mesh to tmp.msh and returns 0. With a wrong number of arguments it returns 1, with a file that does not load it ends as load_msh does; nothing is printed or saved in both cases.", "quantifier": "all files, all builds", "why_tests_cant": "The program has no tests; its loops index vectors with counts from the file.", "anchors": ["examples/msh_inspect.cpp"]}
{"id": "C53", "title": "What msh_inspect does with parametric nodes", "statement": "msh_inspect prints 3 + parametric consecutive numbers per node although a parametric node has 3 + entity_dim numbers. So the behaviour is undefined (a read past the end of a vector) exactly if some block with nodes has parametric outside -3..1, or parametric nodes on an entity of dimension 0 or less; for surfaces and volumes the columns are misaligned. Integer tags of more than six digits are rounded.", "quantifier": "all files that load with sizes that do not wrap, all builds", "why_tests_cant": "Needs files with parametric nodes and shows only in the output.", "anchors": ["examples/msh_inspect.cpp"]}
{"id": "C54", "title": "Saving a loaded file again reproduces it", "statement": "A file written from a consistent spec is loaded and the loaded spec is saved with the same settings: the second file equals the first byte for byte, in version 4.1 text and binary and in version 2.2 text, provided the numbers stored as text print as themselves after being read (with default streams: finite and zero or of normal magnitude). For version 2.2 binary files it does exactly when no two neighbouring element blocks have the same entity and type (they are merged).", "quantifier": "all consistent specs, all four formats, all number formats of the stream", "why_tests_cant": "Byte equality of the two files over all specs and doubles; the loaded spec itself differs from the saved one (rounded numbers, truncated tags, other blocks).", "anchors": ["src/save_msh.cpp: save_msh", "src/load_msh.cpp: load_msh", "src/save_msh_elements.cpp: v22::save_elements_binary", "src/load_msh_post_process.cpp"]}
{"id": "C55", "title": "Files cut short", "statement": "In builds with assertions, a file that was cut short and still loads holds, up to the section it was cut in, exactly what the whole file holds, and that section is either missing or complete; partly read sections never get through. Excluded are the sections whose readers do not look at the stream when they are done: $MeshFormat, $NanoSplineFormat, $Curves, $Patches, and in version 2.2 $Elements and binary $Nodes; for each of them there is a cut file that loads as something else. A saved 4.1 file cut anywhere after its format section loads, if at all, as if cut between two sections. Without assertions none of this holds.", "quantifier": "all files (saved or not), all places to cut, all continuations, all builds with assertions", "why_tests_cant": "Every file has as many cuts as bytes, and whether a cut shows depends on where a number, a block or a tag happens to end.", "anchors": ["src/load_msh.cpp: load_msh, forward_to", "src/load_msh_nodes.cpp", "src/load_msh_elements.cpp", "src/load_msh_entities.cpp", "src/load_msh_data.cpp", "src/load_msh_physical_groups.cpp", "src/load_msh_format.cpp"]}
{"id": "C56", "title": "Sections given more than once", "statement": "In a version 4.1 file the last of several sections of the same name counts: an earlier one makes no difference to what is loaded, whatever lies between and after. Data sections add one entry each, independent of what was read before. In version 2.2, nodes and elements add up: blocks are appended, node counts summed, tag ranges joined, entities appended. Elements of text files are summed up as well, but num_elements of a binary 2.2 file is that of the last $Elements section only, although the blocks of all are kept.", "quantifier": "all files, all numbers and positions of repeated sections, all builds", "why_tests_cant": "Repetition combines with every content, order and format; a reader that forgets to reset or to accumulate one member shows only for particular pairs of sections.", "anchors": ["src/load_msh.cpp: load_msh", "src/load_msh_nodes.cpp: load_nodes", "src/load_msh_elements.cpp: load_elements", "src/load_msh_data.cpp", "src/load_msh_physical_groups.cpp", "src/load_msh_entities.cpp"]}
{"id": "C57", "title": "White space before binary data", "statement": "Where binary data follow text, load_msh skips exactly one line feed, carriage return, space or tab; which of the four it is makes no difference to the outcome, whatever bytes follow: after $Entities, $Nodes and $Elements in version 4.1, after the number of nodes and elements in version 2.2, after the head of a data section in both, and, in builds with the extension, after the head of each curve and patch. A vertical tab or form feed ends the word but counts as the first byte of the data. Before the byte-order marker of the header any number of the four characters is skipped. Line ends of two characters (CR LF) in front of binary data therefore shift the data by one byte: a file without nodes loads as ten blocks of nodes in builds without assertions.", "quantifier": "all files up to the section, all bytes after the character, all choices of the character, all builds", "why_tests_cant": "The skipped character interacts with data that may themselves begin with such a byte; tests use files written by one program on one platform.", "anchors": ["src/io_utils.cpp:7-20 eat_white_space", "src/load_msh_nodes.cpp: load_nodes_binary", "src/load_msh_elements.cpp: load_elements_binary", "src/load_msh_entities.cpp: load_entities_binary", "src/load_msh_data.cpp: load_data", "src/load_msh_curves.cpp: load_curves_binary", "src/load_msh_patches.cpp: load_patches_binary", "src/load_msh_format.cpp: load_mesh_format"]}
{"id": "C58", "title": "Exactly which files make load_msh undefined", "statement": "For every byte string, malformed, cut off or no mesh at all, loading is undefined exactly if the main loop arrives at a section of which the bytes that follow its name and what has been read before meet a condition written down per section, or what follows reading is undefined. The conditions cover all features C36 leaves out: counters that are missing, malformed, negative or too large; strings, reals and integers that are malformed or cut off in the head of data sections; entities in text; tables whose size overflows size_t in text; a dimension to which three cannot be added; elements of version 2.2 whose number of tags is not stored; numbers that are not stored and keep what a previous section left; a second $MeshFormat. If $MeshFormat comes before nodes and elements, what follows reading is undefined exactly if in version 2.2 the table of node tags can be allocated and a tag looked up lies outside it.", "quantifier": "all byte strings, all builds in which a vector of 57 numbers can be allocated", "why_tests_cant": "The input is an arbitrary byte string, and undefined behaviour need not show in a run.", "anchors": ["src/load_msh.cpp: load_msh", "src/load_msh_data.cpp: load_data", "src/load_msh_entities.cpp: load_entities_ascii, load_entities_binary", "src/load_msh_nodes.cpp: load_nodes_ascii, load_nodes_binary", "src/load_msh_elements.cpp: load_elements_ascii, load_elements_binary", "src/load_msh_physical_groups.cpp: load_physical_groups", "src/load_msh_post_process.cpp: regroup_nodes_into_blocks"]}
{"id": "C59", "title": "Exactly how save_msh ends on any spec", "statement": "For every spec, whether or not its counters agree with its vectors, the outcome of save_msh is determined step by step: entities, nodes and elements of an unknown version throw UnsupportedFeature before any block is looked at; a block count above the number of blocks, a node count above the number of tags or coordinates stored, and an element count above the entries stored are undefined behaviour, unless an earlier step throws; counters that are too small only leave out entries; elements of unknown type throw UnsupportedFeature; binary 4.1 elements are written as stored and never fail; data sections of an unknown version throw InvalidFormat in binary; in builds with the extension a curve or patch of the wrong length is an assertion failure or, if too short, undefined. After validate_spec only the length and type of element blocks can still go wrong.", "quantifier": "all specs with vectors of fewer than 2^60 entries, all builds", "why_tests_cant": "All combinations of counters and vector lengths; undefined behaviour need not show in a run.", "anchors": ["src/save_msh.cpp: save_msh", "src/save_msh_nodes.cpp", "src/save_msh_elements.cpp", "src/save_msh_data.cpp", "src/save_msh_entities.cpp", "src/save_msh_curves.cpp", "src/save_msh_patches.cpp"]}
{"id": "C60", "title": "A file cannot make the loader hold more than its bytes pay for, unless a section is read past its end", "statement": "If load_msh returns a spec and no section was read past the end of the file (or past a malformed number), the spec holds at most two items (vector entries, characters of names and string tags) per byte of the file, and its vectors have at most one entry per byte unless the version is 2.2. With assertions only $MeshFormat, $NanoSplineFormat, the sections of the extension and, in version 2.2, $Elements and binary $Nodes can be read past their end, so in builds with assertions and without the extension the bound holds for every file of another version than 2.2. It fails otherwise: without assertions a file that announces n physical groups and ends is loaded as n groups, and in every build a version 2.2 file of about 60 bytes is loaded as n elements, for every n that can be allocated.", "quantifier": "all files, all builds; the counterexamples for all n", "why_tests_cant": "All files; a test can show one amplification, not that there is none, nor that it has no limit.", "anchors": ["src/load_msh.cpp: load_msh", "src/load_msh_nodes.cpp", "src/load_msh_elements.cpp: v22::load_elements_ascii", "src/load_msh_physical_groups.cpp", "src/load_msh_entities.cpp", "src/load_msh_data.cpp", "src/load_msh_post_process.cpp"]}
{"id": "C61", "title": "Assertions and memory only stop the program", "statement": "On every file a build with assertions either stops on a failed assertion or does exactly what the build without assertions does; a machine with less memory either fails an allocation or does exactly what a machine with more memory does; how numbers are printed does not matter to loading. So a file that loads in a debug build loads in a release build, on any larger machine, to the same spec. The reverse is false: a file with a CRLF before binary data loads in release builds and stops debug builds. Saving a spec in a debug build writes the same bytes and ends the same way as in a release build, or stops on an assertion after a prefix of them.", "quantifier": "all files, all specs, all pairs of builds and memory sizes", "why_tests_cant": "Tests run one build on one machine with chosen files; the claim compares all builds on every byte string.", "anchors": ["src/load_msh.cpp: load_msh", "src/save_msh.cpp: save_msh", "src/load_msh_nodes.cpp", "src/load_msh_elements.cpp", "src/load_msh_entities.cpp", "src/load_msh_data.cpp", "src/load_msh_post_process.cpp", "src/save_msh_curves.cpp", "src/save_msh_patches.cpp"]}
{"id": "C62", "title": "Which exceptions load_msh throws, and where", "statement": "load_msh throws only UnsupportedFeature, InvalidFormat and exceptions of failed allocations, never CorruptData. UnsupportedFeature comes from $MeshFormat or $Elements; InvalidFormat from $Entities or binary $Elements of version 2.2 or from a data section; failed allocations from any section with counters, or after reading version 2.2. Builds without assertions never abort.", "quantifier": "all byte strings, all builds", "why_tests_cant": "A test can show that one file throws something, not that no file throws anything else.", "anchors": ["src/load_msh.cpp: load_msh", "src/load_msh_format.cpp", "src/load_msh_entities.cpp", "src/load_msh_elements.cpp", "src/load_msh_data.cpp", "src/load_msh_post_process.cpp", "include/mshio/exception.h"]}
{"id": "C63", "title": "Exactly which files load_msh rejects", "statement": "load_msh throws UnsupportedFeature or InvalidFormat exactly when, reading the sections in order, it comes to one that has a listed defect: a $MeshFormat with another version, with version 4.1 and a data size other than 8, or of a binary file without a 1 in the byte order of the machine; $Entities in version 2.2; $Elements with an unknown element type, or with more elements in its binary groups than announced; a data section with fewer than three int tags. What is cut off or not a number is included: what keeps its former value, what counts as zero, and which failed allocation comes first.", "quantifier": "all byte strings, all builds", "why_tests_cant": "A test shows that one malformed file is rejected; it cannot show that no other file is, or that every file with the defect is.", "anchors": ["src/load_msh.cpp: load_msh", "src/load_msh_format.cpp", "src/load_msh_entities.cpp", "src/load_msh_elements.cpp", "src/load_msh_data.cpp", "src/io_utils.cpp: eat_white_space"]}
{"id": "C64", "title": "Section order in files of either version", "statement": "In a file of version 2.2 or 4.1, sections other than $MeshFormat that follow a section boundary may come in any order that keeps the relative order of equally named ones, without changing what load_msh gives: elements may precede the nodes they refer to, data may precede the mesh. Differently named sections may be permuted freely.", "quantifier": "all files, all boundaries, all runs of readable sections, all reorderings, all continuations, all builds", "why_tests_cant": "There are infinitely many files and factorially many orders of each.", "anchors": ["src/load_msh.cpp:29-69", "src/load_msh_nodes.cpp", "src/load_msh_elements.cpp", "src/load_msh_post_process.cpp"]}
{"id": "C65", "title": "The format section: default, repetition, effect", "statement": "A file without $MeshFormat is read as a text file of version 4.1. A format section at any section boundary replaces the format in force and nothing else; one that announces the format in force changes nothing; of several in a row the last counts.", "quantifier": "all files, boundaries, formats, white space, continuations", "why_tests_cant": "The claim is about every continuation of every file.", "anchors": ["src/load_msh_format.cpp:14-46", "src/load_msh.cpp:29-69", "include/mshio/MshSpec.h"]}
{"id": "C66", "title": "load_msh reads its stream to the end", "statement": "When load_msh returns, nothing of the stream is left and the end of file flag is set; loading from the same stream again gives the empty spec. A second mesh behind the first one is therefore read together with it.", "quantifier": "all files that load, all builds", "why_tests_cant": "Quantifies over all files.", "anchors": ["src/load_msh.cpp:29-69"]}
{"id": "C67", "title": "The same file means the same content, and conversely", "statement": "Two consistent specs of the same format are saved as the same bytes exactly if they agree in everything the format holds: 4.1 text up to the text of doubles, 4.1 binary up to the upper half of data entry tags and the text of real tags, 2.2 text up to entities and the grouping of nodes and elements, 2.2 binary likewise but with the sizes of the element blocks. Specs of different formats never have the same file. Where nothing is lost the map from spec to file is injective.", "quantifier": "all pairs of consistent specs within the limits, all formats, all builds", "why_tests_cant": "Injectivity speaks about all pairs of specs.", "anchors": ["src/save_msh.cpp:18-51", "src/save_msh_nodes.cpp:13-130", "src/save_msh_elements.cpp:13-148"]}
{"id": "C68", "title": "Exactly which files fail an assertion", "statement": "For every byte string, malformed, cut off or no mesh at all, load_msh of a debug build stops on a failed assertion exactly if the main loop arrives at a section of which the bytes that follow its name and what has been read before meet a condition written down per section: the text ends or stops being a number before a place where the stream is checked; binary data are cut off; or the parametric flag of a block of nodes in text is not between 0 and 3. If $MeshFormat comes before nodes and elements, regrouping after reading fails no assertion. A debug build then behaves as a release build on exactly the other files.", "quantifier": "all byte strings, all builds in which a vector of 57 numbers can be allocated", "why_tests_cant": "The input is an arbitrary byte string; where in a section the file may be cut off is not bounded.", "anchors": ["src/load_msh_nodes.cpp: assert(in.good())", "src/load_msh_elements.cpp: assert(in.good())", "src/load_msh_entities.cpp: assert(in.good())", "src/load_msh_data.cpp: assert(in.good())", "src/load_msh_physical_groups.cpp: assert(in.good())", "src/load_msh_post_process.cpp:12-70"]}
{"id": "C69", "title": "Text files of version 4.1 by any program load to the mesh they describe", "statement": "A text file of version 4.1, written by whatever program, loads to the mesh it describes: its sections come in any order, sections MshIO does not know (with any words but their own last line) and words between sections are among them, the white space is arbitrary and may be missing at the end, whole numbers may have a sign and zeros in front, a double may be any numeral it is nearest to, names are quoted with any escapes or bare. Each section of the mesh is there at most once, data sections any number of times, and the counters in the file agree with what follows. No file describes two meshes.", "quantifier": "all meshes, all orders of sections, all spellings of all items, all white space, all builds", "why_tests_cant": "Tests load files that one or two programs wrote; the ways to write the same mesh are unbounded.", "anchors": ["src/load_msh.cpp:21-80", "src/load_msh_nodes.cpp:17-51", "src/load_msh_elements.cpp", "src/load_msh_entities.cpp", "src/load_msh_data.cpp:16-136", "src/load_msh_physical_groups.cpp:12-27"]}
{"id": "C70", "title": "Text files of version 2.2 by any program load to the mesh they describe", "statement": "A text file of version 2.2, written by whatever program, loads to the mesh it describes: nodes and elements after the header, elements before or after nodes, other sections in any order, sections MshIO does not know and words between sections anywhere, any white space (none needed at the end), every item spelled in any way, elements with any number of tags. The nodes and elements are those of the file, grouped into maximal runs; nodes lie on the entity of the last element that uses them; the first two tags of elements make the entities with their physical groups. Each of the sections of the mesh is there at most once, data sections any number of times, counters agree with what follows, and the nodes of elements are between the smallest and the largest node tag. The described mesh is unique.", "quantifier": "all lists of nodes and elements, all orders of sections, all spellings of all items, all white space, all builds", "why_tests_cant": "The ways to write the same mesh are unbounded, and so are tags, numbers and orders of elements.", "anchors": ["src/load_msh.cpp:21-80", "src/load_msh_nodes.cpp:90-120", "src/load_msh_elements.cpp:84-170", "src/load_msh_post_process.cpp:12-113"]}
{"id": "C71", "title": "Binary files of version 4.1 by any program load to the mesh they describe", "statement": "A binary file of version 4.1, written by whatever program, loads to the mesh it describes: sections in any order after the header, sections that are text in binary files (physical names, the NanoSpline version), sections MshIO does not know and words between sections anywhere, any white space around words and none needed after binary data and at the end of the file, one line feed, carriage return, space or tab in front of binary data (any number of them in front of the number that shows the byte order), and the text in data sections spelled in any way. Each section of the mesh is there at most once, data sections any number of times, and the counters agree with what follows. A text file and a binary file of the same sections load to meshes that differ in the file type only.", "quantifier": "all meshes, all orders of sections, all spellings of the text, all white space, all builds", "why_tests_cant": "Tests load binary files that one or two programs wrote; the ways to write the same mesh, and the bytes in the data, are unbounded.", "anchors": ["src/load_msh.cpp:21-80", "src/load_msh_format.cpp:14-44", "src/io_utils.cpp", "src/load_msh_nodes.cpp:53-88", "src/load_msh_elements.cpp", "src/load_msh_entities.cpp", "src/load_msh_data.cpp:16-136", "src/load_msh_curves.cpp", "src/load_msh_patches.cpp"]}
{"id": "C72", "title": "Binary files of version 2.2 by any program load to the mesh they describe", "statement": "A binary file of version 2.2, written by whatever program, loads to the mesh it describes: nodes and elements after the header, elements before or after nodes and in any number of groups of one type and one number of tags, text sections, unknown sections and words between sections anywhere, any white space around words, one line feed, carriage return, space or tab in front of binary data, the text spelled in any way. Nodes and elements are grouped and the entities made exactly as for the text file of the same sections, so that the two load to meshes that differ in the file type only. Node tags and element numbers are below 2^31, and the nodes of elements are between the smallest and the largest node tag.", "quantifier": "all lists of nodes and groups of elements, all orders of sections, all spellings of the text, all white space, all builds", "why_tests_cant": "The ways to write the same mesh are unbounded, and so are tags, numbers and groups of elements.", "anchors": ["src/load_msh.cpp:21-80", "src/load_msh_format.cpp:14-44", "src/load_msh_nodes.cpp:122-155", "src/load_msh_elements.cpp:172-253", "src/load_msh_post_process.cpp:12-113"]}
{"id": "C73", "title": "A full disk goes unnoticed", "statement": "save_msh never looks at the state of its stream: however many bytes the device takes, it ends exactly as it would with unlimited room, and the device holds the bytes that fit. So when the disk is full the file-name overload returns normally and leaves a file cut short. A caller of the stream overload can tell from the stream: it is good afterwards if and only if every byte arrived. On a stream that is not good nothing is written and the call ends the same. In builds with assertions what is left of a 4.1 file, if the format section is there and it loads at all, loads as if whole sections at the end were missing.", "quantifier": "all specs, all builds, all capacities of the device, all states of the stream", "why_tests_cant": "Tests write to disks with room; where the device fills up is one of as many places as the file has bytes.", "anchors": ["src/save_msh.cpp:18-60", "src/save_msh_nodes.cpp", "src/save_msh_elements.cpp", "src/save_msh_data.cpp", "src/save_msh_entities.cpp"]}
{"id": "C74", "title": "A read error is never taken for the end of the file, and mostly makes loading run forever", "statement": "When the device fails after any number of bytes, load_msh never returns a mesh, complete or partial: it throws, fails an assertion, runs into undefined behaviour or loops forever. A path that names a directory (which std::ifstream opens on Linux) makes it loop forever. If what arrived ends in white space, loading goes on exactly as on a file of these bytes, except that where it would come to the end of such a file it loops forever; in particular a file that loads makes it loop forever if an error comes in place of its end.", "quantifier": "all byte sequences before the error, all builds, any number of rounds of the loops", "why_tests_cant": "Tests read from devices that do not fail; the error can come after any byte of any file, and that a loop never ends cannot be observed.", "anchors": ["src/load_msh.cpp:21-78", "src/io_utils.cpp:7-20"]}
{"id": "C75", "title": "Exactly which files ask for too much memory, and exactly which files load", "statement": "For every sequence of bytes, load_msh throws because a vector cannot be allocated exactly if, reading the sections one after the other, it comes to one whose bytes ask for too long a vector (a count that is negative or too large, a table whose size computed modulo 2^64 is too large, one more entry than fits), or if it comes to the end and regrouping a version 2.2 mesh does. Together with the exact conditions for undefined behaviour, rejection, failed assertions and endless loops this gives exactly the files that load: those with nothing wrong with any section come to, and with what follows.", "quantifier": "all byte sequences, all builds, all limits on the length of a vector of at least 57", "why_tests_cant": "Whether a file loads depends on every byte of it and on the memory there is; tests see some files on one machine.", "anchors": ["src/load_msh.cpp:21-78", "src/load_msh_nodes.cpp", "src/load_msh_elements.cpp", "src/load_msh_entities.cpp", "src/load_msh_data.cpp", "src/load_msh_curves.cpp", "src/load_msh_patches.cpp", "src/load_msh_post_process.cpp:12-101"]}
{"id": "C76", "title": "Exactly what follows reading a version 2.2 file, and exactly what is loaded", "statement": "After a file in which $MeshFormat comes before nodes and elements has been read, load_msh returns exactly if the version is 4.1, or the table from the least to the greatest node tag can be allocated, the tags of all nodes and of all nodes of elements lie in it, and the blocks can be allocated: no more runs of nodes on the same entity than fit, and for no run more coordinates, or more element entries, than fit. What it returns is what was read, with the nodes cut where the entity of the last element using the node changes, the elements cut where dimension, entity or type changes, in the order of the file and across sections, and nothing else changed. Otherwise it throws for lack of memory or is undefined, each under an exact condition.", "quantifier": "all byte sequences with $MeshFormat before nodes and elements, all builds, all limits on the length of a vector", "why_tests_cant": "The result depends on all nodes and elements together, on their order and on the memory available; tests try a few meshes on a machine with plenty of it.", "anchors": ["src/load_msh_post_process.cpp:12-111", "src/load_msh.cpp:21-78"]}
{"id": "C77", "title": "Exactly which warnings loading writes", "statement": "What load_msh writes to the standard error stream is one complete line 'Warning: skipping section \"$name\"' for each section it finds whose name is none of the eleven in its cascade, in the order of the file, and nothing else, also if loading later throws, crashes or does not come back. The names can be read off the lines. An unknown section inserted at a section boundary adds exactly its line at its place; words between sections add nothing; files by any program as in C69-C72 give the lines of their unknown sections; files MshIO has saved load silently. The warnings do not change the result. Builds without the nanospline extension drop $Curves and $Patches without a warning.", "quantifier": "all byte sequences, all builds, all limits on the length of a vector; for saved files all specs as in C01-C04", "why_tests_cant": "Silence and order of messages are claims about every file; a test sees the messages of the files it has, and the silent loss of splines happens only in builds without the extension.", "anchors": ["src/load_msh.cpp:21-69"]}
{"id": "C78", "title": "Warnings about a truncated file", "statement": "Cutting a file off anywhere leaves the first of the warnings the whole file causes, and adds at most one, about the unknown name at the very end of what is left. A cut behind white space adds none. So a truncated copy of a file that loads silently, for instance of one MshIO has saved, causes at most one line, naming the last word of the copy.", "quantifier": "all byte sequences and all places to cut them, all builds, all limits on the length of a vector", "why_tests_cant": "There are as many cuts as bytes, in as many files as there are; a warning about a section nobody wrote would be found only by the one test that cuts there.", "anchors": ["src/load_msh.cpp:21-69"]}
{"id": "C79", "title": "Exactly when repr raises in Python", "statement": "In the Python binding repr(spec) raises UnicodeDecodeError exactly if the version or the name of a physical group is not valid UTF-8; so do repr of the format and of a group by themselves. No other bound object's repr raises, whatever it contains. The loader accepts names that are not UTF-8, so a file that loads can give a spec that cannot be shown.", "quantifier": "all specs and all parts of a spec, all byte strings as versions and names", "why_tests_cant": "Whether a byte string is UTF-8 is a condition on every byte and its neighbours; tests use a handful of ASCII names.", "anchors": ["python/pymshio.cpp:17-21", "python/pymshio.cpp:31-37", "python/pymshio.cpp:107-112", "python/pymshio.cpp:216-219", "python/pymshio.cpp:231-252"]}
{"id": "C80", "title": "Exactly what repr shows", "statement": "repr(spec) is determined by, and (if the version has no comma and no group name a closing parenthesis) determines, the format, the eight numbers of the node and element headers, the number of entities of each dimension, the physical groups and the outline of the data sections; nothing else of the spec has any influence. Hence saving to a 4.1 file and loading leaves it unchanged, even where coordinates are rounded. With a parenthesis in a name one group can look like two. repr of a point tells coordinates apart only if they are further apart than a few millionths.", "quantifier": "all pairs of specs, all pairs of points with finite coordinates, all formats of the output stream", "why_tests_cant": "It is about pairs of specs that print alike, which nobody finds by printing some.", "anchors": ["python/pymshio.cpp:17-21", "python/pymshio.cpp:46-51", "python/pymshio.cpp:74-79", "python/pymshio.cpp:86-112", "python/pymshio.cpp:121-125", "python/pymshio.cpp:204-252"]}
{"id": "C81", "title": "The text of repr", "statement": "The repr of every bound object is Class(name=value, name=value, ...) with the values of the object's attributes under the names by which they are bound: integers in decimal, vectors as their length, coordinates as the nearest decimal with six places, strings as they are, nested objects and lists of them as their own repr. In particular the three kinds of entities with a box are told apart, each with its own name for the boundary.", "quantifier": "all objects of all bound classes (finite coordinates, strings that are UTF-8)", "why_tests_cant": "A test prints one object; swapped attributes go unnoticed whenever they have the same value, and rounding is a statement about every double.", "anchors": ["python/pymshio.cpp:17-21", "python/pymshio.cpp:31-37", "python/pymshio.cpp:46-51", "python/pymshio.cpp:60-65", "python/pymshio.cpp:74-79", "python/pymshio.cpp:86-112", "python/pymshio.cpp:121-125", "python/pymshio.cpp:138-148", "python/pymshio.cpp:161-171", "python/pymshio.cpp:184-195", "python/pymshio.cpp:204-252"]}
{"id": "C82", "title": "What validate_spec says is wrong", "statement": "validate_spec throws CorruptData with a given message exactly when what the message says is the case for this spec and everything checked before it (the counts, the tag ranges, earlier blocks, earlier entries of the block) is in order. So there is never more than one possible message, none for a valid spec, and exactly one for an invalid spec on which no computation overflows or divides by zero.", "quantifier": "all specs with vectors shorter than 2^64", "why_tests_cant": "A test looks at one broken spec per message; that a message is never about something that is not wrong, and that the first problem is the one reported whatever else is wrong, concerns every spec.", "anchors": ["src/validate_spec.cpp:8-59", "include/mshio/exception.h:34-45"]}
{"id": "C83", "title": "What load_msh says about a $MeshFormat section it rejects", "statement": "The text of the UnsupportedFeature thrown for a $MeshFormat section names what is wrong with it and quotes what was read: the version if it is neither 2.2 nor 4.1, else the data size if the version is 4.1 and it is not 8, else the version together with the wrong byte order. There is such a text exactly for the sections that are rejected, and only one.", "quantifier": "all bytes that may follow $MeshFormat, whatever was read before; whole files through C63", "why_tests_cant": "A test looks at one header per message. That malformed, cut off or doubly wrong headers get the right message, with the number that was really used, concerns every input.", "anchors": ["src/load_msh_format.cpp:14-44", "include/mshio/exception.h:21-32"]}
