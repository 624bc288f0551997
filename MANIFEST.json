{
 "claims": [
  {
   "property": "C01",
   "status": "partial",
   "theorems": [
    "Go3mf.C01_unusedID_partial",
    "Go3mf.C01_exact",
    "Go3mf.C01_right",
    "Go3mf.C01_unusedID_duplicate_false",
    "Go3mf.C01_unusedID_zero_false"
   ],
   "note": "Proved for collections whose identifiers are positive and distinct; false otherwise (witnesses with a duplicate and with a zero identifier). C01_exact gives the result for every collection and C01_right says exactly when it is right."
  },
  {
   "property": "C02",
   "status": "proved",
   "theorems": [
    "Go3mf.C02_findObject",
    "Go3mf.C02_findObject_none",
    "Go3mf.C02_findAsset",
    "Go3mf.C02_findAsset_none",
    "Go3mf.C02_identify"
   ],
   "note": "First match in document order, for every collection."
  },
  {
   "property": "C03",
   "status": "proved",
   "theorems": [
    "Go3mf.C03_root",
    "Go3mf.C03_child",
    "Go3mf.C03_none",
    "Go3mf.C03_findObject",
    "Go3mf.C03_findAsset",
    "Go3mf.C03_pathOrDefault"
   ],
   "note": "Root, child and missing paths for FindResources, FindObject, FindAsset."
  },
  {
   "property": "C04",
   "status": "proved",
   "theorems": [
    "Go3mf.C04_walkObjects",
    "Go3mf.C04_walkAssets",
    "Go3mf.C04_order_exists",
    "Go3mf.C04_map_order",
    "Go3mf.C04_trace"
   ],
   "note": "Visitor is an arbitrary stateful function with early stop; independent of the map order."
  },
  {
   "property": "C05",
   "status": "proved",
   "theorems": [
    "Go3mf.C05_vertices",
    "Go3mf.C05_distinct",
    "Go3mf.C05_index"
   ],
   "note": "Over every history with an arbitrary quantisation function; int32 overflow of the cell coordinates is inside that function."
  },
  {
   "property": "C06",
   "status": "proved",
   "theorems": [
    "Go3mf.C06_toggle",
    "Go3mf.C06_monotone",
    "Go3mf.C06_off"
   ],
   "note": "Flag toggled at any time."
  },
  {
   "property": "C07",
   "status": "proved",
   "theorems": [
    "Go3mf.C07_coherency",
    "Go3mf.C07_nil_iff",
    "Go3mf.C07_indices"
   ],
   "note": "For meshes with less than 2^32 edges (the counters are uint32)."
  },
  {
   "property": "C08",
   "status": "proved",
   "theorems": [
    "Go3mf.C08_permute",
    "Go3mf.C08_rotate",
    "Go3mf.C08_flip",
    "Go3mf.C08_rename"
   ],
   "note": "Permutation, rotation, flip, injective renaming; meshes with less than 2^32 edges."
  },
  {
   "property": "C09",
   "status": "proved",
   "theorems": [
    "Go3mf.C09_result",
    "Go3mf.C09_nil_iff",
    "Go3mf.C09_returns",
    "Go3mf.C09_map_order"
   ],
   "note": "Every interleaving, load and store of the shared variable being separate steps; also no deadlock."
  },
  {
   "property": "C10",
   "status": "proved",
   "theorems": [
    "Go3mf.C10_touches",
    "Go3mf.C10_tightest",
    "Go3mf.C10_empty"
   ],
   "note": "Tightest enclosing box and touching faces, for every list of finite vertices; empty mesh gives the zero box."
  },
  {
   "property": "C11",
   "status": "partial",
   "theorems": [
    "Go3mf.C11_schedule_partial",
    "Go3mf.C11_returns",
    "Go3mf.C11_nan_false",
    "Go3mf.C11_orders"
   ],
   "note": "Schedule independence proved when no box has a NaN; with a NaN the result depends on the schedule (witness). C11_orders: the possible results are exactly those of joining the boxes in some order, so every order does occur."
  },
  {
   "property": "C12",
   "status": "partial",
   "theorems": [
    "Go3mf.C12_encloses_partial",
    "Go3mf.C12_rotation_false",
    "Go3mf.C12_origin_false",
    "Go3mf.C12_path_false"
   ],
   "note": "Proved for models whose transforms have no mixed-sign rows/rotations, whose boxes are not the zero box and whose components name their part; witnesses show the property fails for rotations, for geometry whose box is the zero box and for nested components in another part."
  },
  {
   "property": "C13",
   "status": "partial",
   "theorems": [
    "Go3mf.C13_acyclic_partial",
    "Go3mf.C13_cycle_false",
    "Go3mf.C13_path_false",
    "Go3mf.C13_exact"
   ],
   "note": "Termination is proved when no object contains itself and no component refers to another part. Accepted models with a cycle of components, or with components in other parts whose path the recursion resolves wrongly, make it run for ever (C13_cycle_false, C13_path_false). C13_exact says exactly when BoundingBox returns: when there is no endless chain of references below an item."
  },
  {
   "property": "C14",
   "status": "proved",
   "theorems": [
    "Go3mf.C14_call",
    "Go3mf.C14_call_empty",
    "Go3mf.C14_history",
    "Go3mf.C14_validators"
   ],
   "note": "Every call history, nested lists included."
  },
  {
   "property": "C15",
   "status": "partial",
   "theorems": [
    "Go3mf.C15_reaches",
    "Go3mf.C15_unwrap",
    "Go3mf.C15_is",
    "Go3mf.C15_list",
    "Go3mf.C15_holds",
    "Go3mf.C15_xpath",
    "Go3mf.C15_is_list_false"
   ],
   "note": "Wrapping keeps the target and reports the whole path. Wrapping a list wraps each member, but errors.Is only looks at the first member of a list (C15_reaches, C15_is_list_false)."
  },
  {
   "property": "C16",
   "status": "proved",
   "theorems": [
    "Go3mf.C16_language",
    "Go3mf.C16_roundtrip"
   ],
   "note": "Exact language and round trip."
  },
  {
   "property": "C17",
   "status": "proved",
   "theorems": [
    "Go3mf.C17_language",
    "Go3mf.C17_roundtrip"
   ],
   "note": "Exact language (Unicode white space) and round trip for every matrix."
  },
  {
   "property": "C18",
   "status": "proved",
   "theorems": [
    "Go3mf.C18_canonical",
    "Go3mf.C18_lower",
    "Go3mf.C18_valid",
    "Go3mf.C18_version",
    "Go3mf.C18_injective"
   ],
   "note": "For every 16 random bytes."
  },
  {
   "property": "C19",
   "status": "partial",
   "theorems": [
    "Go3mf.C19_validate_partial",
    "Go3mf.C19_accepts",
    "Go3mf.C19_rejects_partial",
    "Go3mf.C19_braces_false"
   ],
   "note": "Exact accepted language. The 38-byte form does not check its first and last byte (C19_braces_false); every other length is exactly the documented forms."
  },
  {
   "property": "C20",
   "status": "proved",
   "theorems": [
    "Go3mf.C20_roundtrip",
    "Go3mf.C20_stable",
    "Go3mf.C20_exact",
    "Go3mf.C20_special",
    "Go3mf.C20_uint",
    "Go3mf.C20_uint_language",
    "Go3mf.C20_shortest",
    "Go3mf.C20_shortest_min"
   ],
   "note": "float32 text written with 3 decimals is re-read as the nearest representable value; bounds, stability and special values; at negative precisions every number comes back exactly (C20_shortest), and the text is the shortest and closest one that does (C20_shortest_min)"
  },
  {
   "property": "C21",
   "status": "proved",
   "theorems": [
    "Go3mf.C21_units",
    "Go3mf.C21_objectType",
    "Go3mf.C21_meshResolution",
    "Go3mf.C21_clipMode",
    "Go3mf.C21_capMode",
    "Go3mf.C21_tileStyle",
    "Go3mf.C21_textureFilter",
    "Go3mf.C21_blendMethod",
    "Go3mf.C21_texture2DType",
    "Go3mf.C21_spellings"
   ],
   "note": "All enumerations."
  },
  {
   "property": "C22",
   "status": "proved",
   "theorems": [
    "Go3mf.C22_text",
    "Go3mf.C22_attr",
    "Go3mf.C22_exact",
    "Go3mf.C22_clean_unique",
    "Go3mf.C22_safe"
   ],
   "note": "The escaper and the text reader are modelled byte for byte. Every byte string is written as text that the reader returns with exactly the characters outside the XML range replaced by U+FFFD, as text and as attribute value; strings of XML characters come back unchanged; the written text contains no byte that could end it."
  },
  {
   "property": "C23",
   "status": "partial",
   "theorems": [
    "Go3mf.C23_roundtrip_partial",
    "Go3mf.C23_header_partial",
    "Go3mf.C23_values",
    "Go3mf.C23_scope_false",
    "Go3mf.C23_attr_false",
    "Go3mf.C23_elem_false",
    "Go3mf.C23_exact_partial",
    "Go3mf.C23_nested_partial",
    "Go3mf.C23_nestedHeader_partial"
   ],
   "note": "Printing and then reading a document gives its tokens (names, name spaces, attributes in order, texts joined), for every balanced sequence of tokens, in both auto-close modes, with or without the XML header, when the name spaces are declared in the root element, as this package does (C23_roundtrip_partial, C23_header_partial), and for declarations in any element, with prefixes that stand for different name spaces and name spaces with several prefixes, as long as every name is used where the prefix last declared for its name space stands for it (C23_nested_partial, C23_nestedHeader_partial). The unrestricted statement is false: C23_scope_false (a second prefix for a name space leaks out of its element), C23_attr_false and C23_elem_false (undeclared name spaces). The condition is exact (C23_exact_partial): a balanced document with well formed names and declarations survives if and only if it holds, provided that the name space of every attribute was declared somewhere before and that no prefix is spelled like its name space."
  },
  {
   "property": "C24",
   "status": "proved",
   "theorems": [
    "Go3mf.C24_resolve",
    "Go3mf.C24_balanced",
    "Go3mf.C24_restore"
   ],
   "note": "The events of the reader equal the tags as written with each prefix resolved by the innermost enclosing declaration, a specification by scopes independent of the reader's undo stack. Start and end tags balance and the bindings are restored at each end tag."
  },
  {
   "property": "C25",
   "status": "partial",
   "theorems": [
    "Go3mf.C25_bytes_partial",
    "Go3mf.C25_chunks_partial",
    "Go3mf.C25_same_partial",
    "Go3mf.C25_unget",
    "Go3mf.C25_empty_false"
   ],
   "note": "The token sequence depends only on the bytes delivered, for every way of cutting them in reads, as long as fewer than 100 consecutive reads return nothing. C25_empty_false shows that 100 consecutive empty reads make the same document fail. Missing: nothing else; the unrestricted statement is false."
  },
  {
   "property": "C26",
   "status": "partial",
   "theorems": [
    "Go3mf.C26_partial",
    "Go3mf.C26_unmarshal_partial",
    "Go3mf.C26_roots_false",
    "Go3mf.C26_name_false",
    "Go3mf.C26_attr_false",
    "Go3mf.C26_lattice_false",
    "Go3mf.C26_path_false",
    "Go3mf.Spec.C26_exact",
    "Go3mf.Spec.C26_only",
    "Go3mf.Spec.C26_unmarshal_exact",
    "Go3mf.Spec.C26_nested_false"
   ],
   "note": "Decoding panics on some inputs: a second root element (C26_roots_false), an element model inside the model (C26_nested_false), an element with empty name (C26_name_false), an attribute in an extension name space on an element for which the extension has no attribute group (C26_attr_false), a beam lattice outside of a mesh (C26_lattice_false), a model with another path (C26_path_false). C26_exact, C26_only and C26_unmarshal_exact give the exact condition: decoding a part panics if and only if Crashes holds of its tokens, a predicate on the names of elements and the name spaces of attributes that does not mention the decoder. C26_partial and C26_unmarshal_partial prove that there is no panic for SafeDoc documents: one root, no element inside an element of the same name, named elements, extension attributes only where defined, lattices only in meshes."
  },
  {
   "property": "C27",
   "status": "proved",
   "theorems": [
    "Go3mf.C27_fails",
    "Go3mf.C27_first",
    "Go3mf.C27_syntax"
   ],
   "note": "C27_fails: strict fails iff lenient fails, same model if neither does, for any token stream, stream end and cancellation. C27_first: with end of file and no cancellation the strict error is the first lenient error. C27_syntax: a syntax error after a decode error hides it in lenient mode only. All assume that lenient decoding does not panic (C26)."
  },
  {
   "property": "C28",
   "status": "proved",
   "theorems": [
    "Go3mf.C28_part",
    "Go3mf.C28_marshal",
    "Go3mf.C28_components_false",
    "Go3mf.C28_both_false",
    "Go3mf.C28_default_false",
    "Go3mf.C28_exact",
    "Go3mf.C28_shortest",
    "Go3mf.C28_bottom_false",
    "Go3mf.C28_transform_false"
   ],
   "note": "C28_part and C28_marshal: for every model that satisfies the explicit conditions Spec.Writable (texts, names, prefixes) and Spec.ModelOk (what has a written form), including the content of extensions, decoding what is written gives no error and a model that agrees up to the written precision (Spec.NearModel), for every registry, mode and behaviour of aliased texts. A triangle without a property comes back with the one of its object. C28_exact: if every number survives its precision (Spec.ExactModel), the model that is read is equal to the one that was written; C28_shortest: at the precision -1 that holds but for transforms, triangles without property and slice stacks that begin at -0 (C28_transform_false, C28_bottom_false). Outside the conditions: C28_components_false, C28_both_false, C28_default_false show what is lost."
  },
  {
   "property": "C29",
   "status": "partial",
   "theorems": [
    "Go3mf.C29_triangles_partial",
    "Go3mf.C29_alias_false",
    "Go3mf.C29_exact"
   ],
   "note": "C29_triangles_partial: corners and effective property of every triangle of every writable model survive. C29_exact: every triangle is written with its own attributes if and only if no triangle needs one of the names that the unknown attributes of an earlier one replaced in the shared array (Spec.Undisturbed, which is also the condition in Spec.Writable). C29_alias_false shows a loss."
  },
  {
   "property": "C30",
   "status": "partial",
   "theorems": [
    "Go3mf.C30_decode",
    "Go3mf.C30_encode_partial",
    "Go3mf.C30_triangle_false",
    "Go3mf.C30_escape_false",
    "Go3mf.C30_xml_false",
    "Go3mf.C30_empty_false"
   ],
   "note": "C30_decode: every element that takes attributes of extensions groups the unknown ones by name space in document order. C30_encode_partial: the attributes of every element of a writable model survive. The property fails for triangles (C30_triangle_false, C30_escape_false), for the name space xml on the root (C30_xml_false) and for empty groups of metadata (C30_empty_false)."
  },
  {
   "property": "C31",
   "status": "partial",
   "theorems": [
    "Go3mf.C31_decode_partial",
    "Go3mf.C31_mesh_partial",
    "Go3mf.C31_resources_partial",
    "Go3mf.C31_encode_partial",
    "Go3mf.C31_roundtrip_partial",
    "Go3mf.C31_text_false",
    "Go3mf.C31_nested_false",
    "Go3mf.C31_pieces",
    "Go3mf.C31_overwritten",
    "Go3mf.C31_overwritten_short",
    "Go3mf.C31_root_name",
    "Go3mf.C31_overwritten_false",
    "Go3mf.C31_overwritten_long"
   ],
   "note": "Decoding (C31_decode_partial, C31_mesh_partial, C31_resources_partial): every complete unknown element below a model, a mesh or the resources is recorded as exactly its tokens. Encoding (C31_encode_partial): its tokens are, in order, in the document written; C31_roundtrip_partial combines both. Missing because the code fails there: texts (C31_text_false, the bytes of a text are overwritten by the buffer of the reader, modelled in Model/Buffer.lean; C31_overwritten says exactly what every text of every document that is read to its end reads as, C31_overwritten_short the same for names, values and texts of at most 64 bytes, C31_root_name that it then begins with the name of the root) and elements nested in one with the same name (C31_nested_false)."
  },
  {
   "property": "C32",
   "status": "partial",
   "theorems": [
    "Go3mf.C32_one_partial",
    "Go3mf.C32_first_false",
    "Go3mf.C32_second_false"
   ],
   "note": "The code violates the claim: C32_first_false (nothing but the first element of each list leaves a trace in the document), C32_second_false. C32_one_partial: lists with at most one element survive."
  },
  {
   "property": "C33",
   "status": "proved",
   "theorems": [
    "Go3mf.C33_materials",
    "Go3mf.C33_part"
   ],
   "note": "C33_materials, C33_part: every materials resource of every writable model is read back, numbers rounded."
  },
  {
   "property": "C34",
   "status": "partial",
   "theorems": [
    "Go3mf.C34_stack_partial",
    "Go3mf.C34_segment_false",
    "Go3mf.C34_exact_partial"
   ],
   "note": "C34_exact_partial: what every stack of every written document becomes, and that it survives if and only if its segments have properties only with a group (C34_stack_partial is one direction); C34_segment_false shows the loss otherwise."
  },
  {
   "property": "C35",
   "status": "partial",
   "theorems": [
    "Go3mf.C35_lattice_partial",
    "Go3mf.C35_radius_false",
    "Go3mf.C35_zero_false",
    "Go3mf.C35_exact_partial"
   ],
   "note": "C35_lattice_partial: every lattice that is the first element of its mesh and satisfies LatticeOk. C35_exact_partial: the exact radii that are read for all lattices, whatever the radii are; C35_radius_false and C35_zero_false show what happens to some of them."
  },
  {
   "property": "C36",
   "status": "partial",
   "theorems": [
    "Go3mf.C36_roundtrip_partial",
    "Go3mf.C36_empty_false",
    "Go3mf.C36_missing_partial",
    "Go3mf.C36_unique",
    "Go3mf.C36_build_false"
   ],
   "note": "C36_roundtrip_partial: attributes with valid UUIDs survive; C36_empty_false: an item with a path only is decoded but cannot be read again after writing. C36_missing_partial: SetMissingUUIDs on every model; C36_build_false: a build with an empty UUID is skipped. C36_unique: after SetMissingUUIDs all UUIDs of the model are set and differ, given that the generator yields new, distinct ones. What is read from any document, malformed attributes included, is part of C60."
  },
  {
   "property": "C37",
   "status": "partial",
   "theorems": [
    "Go3mf.C37_ids_partial",
    "Go3mf.C37_items",
    "Go3mf.C37_components",
    "Go3mf.C37_triangles",
    "Go3mf.C37_properties_partial",
    "Go3mf.C37_groups",
    "Go3mf.C37_group_false",
    "Go3mf.C37_zeroId_false",
    "Go3mf.C37_emptyPath_false"
   ],
   "note": "Items, components and triangles are proved; properties are proved when all assets of the part are property groups (C37_groups). False in the code: a triangle may refer to a resource that is not a group (C37_group_false), some resources are not checked for a zero identifier (C37_zeroId_false), a child model stored under the empty path is checked against the root resources (C37_emptyPath_false)."
  },
  {
   "property": "C38",
   "status": "partial",
   "theorems": [
    "Go3mf.C38_complete_partial",
    "Go3mf.C38_large_false"
   ],
   "note": "Proved for models whose meshes have fewer than 2^32 vertices; a vertex count of 2^32 is truncated to 0 and a conforming model is rejected (C38_large_false)."
  },
  {
   "property": "C39",
   "status": "partial",
   "theorems": [
    "Go3mf.C39_direct_partial",
    "Go3mf.C39_cycle_false"
   ],
   "note": "Direct self reference is rejected; indirect cycles are accepted (C39_cycle_false)."
  },
  {
   "property": "C40",
   "status": "proved",
   "theorems": [
    "Go3mf.C40_exact",
    "Go3mf.C40_accepts"
   ],
   "note": "Exact list of reports for every relationship list; attachment comparison is over an arbitrary case folding."
  },
  {
   "property": "C41",
   "status": "partial",
   "theorems": [
    "Go3mf.C41_exact",
    "Go3mf.C41_accepts",
    "Go3mf.C41_decoded_false"
   ],
   "note": "C41_exact: the exact error list of metadata validation. The decoded half fails: C41_decoded_false shows a document whose metadata is in a declared name space and is rejected, because the decoder stores the prefix and the validation compares name spaces."
  },
  {
   "property": "C42",
   "status": "partial",
   "theorems": [
    "Go3mf.C42_composite_partial",
    "Go3mf.C42_multi_partial",
    "Go3mf.C42_composite_false",
    "Go3mf.C42_multi_false",
    "Go3mf.C42_texture_false"
   ],
   "note": "Bounds of composite and multi properties are proved up to the off-by-one of the code: index equal to the length is accepted (C42_composite_false, C42_multi_false) and texture groups have length 0 (C42_texture_false)."
  },
  {
   "property": "C43",
   "status": "partial",
   "theorems": [
    "Go3mf.C43_beams",
    "Go3mf.C43_sets_partial",
    "Go3mf.C43_sets_false",
    "Go3mf.C43_clip_false"
   ],
   "note": "Beams are proved to use two different existing vertices. Beam set references are compared with the length of the set instead of the number of beams (C43_sets_false); the clipping mesh check is inverted (C43_clip_false)."
  },
  {
   "property": "C44",
   "status": "partial",
   "theorems": [
    "Go3mf.C44_tops_partial",
    "Go3mf.C44_refs",
    "Go3mf.C44_bottom_false",
    "Go3mf.C44_nan_false",
    "Go3mf.C44_vertices_false",
    "Go3mf.C44_repeat_false"
   ],
   "note": "Strictly increasing tops not below the bottom, at least one segment per polygon, and references are proved for heights that are not NaN. False in the code: top above bottom (C44_bottom_false), NaN (C44_nan_false), vertex bounds (C44_vertices_false), repeated vertices (C44_repeat_false)."
  },
  {
   "property": "C45",
   "status": "proved",
   "theorems": [
    "Go3mf.C45_facets",
    "Go3mf.C45_language",
    "Go3mf.C45_truncated",
    "Go3mf.C45_bits",
    "Go3mf.C45_value"
   ],
   "note": "Whole file format: language accepted, mesh of every facet list, every truncation. The quantisation cell is that of math.go on amd64; indices assume at most 2^32 vertices."
  },
  {
   "property": "C46",
   "status": "partial",
   "theorems": [
    "Go3mf.C46_lines_partial",
    "Go3mf.C46_streams",
    "Go3mf.C46_malformed_false",
    "Go3mf.C46_long_false"
   ],
   "note": "Triangles, vertices and ignored lines for every text with lines below 64 KiB. Missing because the code violates it: malformed vertex lines are not errors (C46_malformed_false) and a long line is one (C46_long_false)."
  },
  {
   "property": "C47",
   "status": "partial",
   "theorems": [
    "Go3mf.C47_binary_partial",
    "Go3mf.C47_ascii_partial",
    "Go3mf.C47_unchanged",
    "Go3mf.C47_small_false",
    "Go3mf.C47_smallAscii_false",
    "Go3mf.C47_hang_false",
    "Go3mf.C47_solid_false",
    "Go3mf.C47_name_false",
    "Go3mf.C47_cancelAscii_partial",
    "Go3mf.C47_cancelBinary_partial",
    "Go3mf.C47_cancel_false"
   ],
   "note": "Both formats from 300 bytes on; cancellation of ASCII files at the points where the code looks. Missing because the code violates it: small files, files that look like the other format, a failing reader, cancellation of binary files (the _false theorems)."
  },
  {
   "property": "C48",
   "status": "partial",
   "theorems": [
    "Go3mf.C48_success",
    "Go3mf.C48_resources_partial",
    "Go3mf.C48_private",
    "Go3mf.C48_ends",
    "Go3mf.C48_error_false",
    "Go3mf.C48_any_false",
    "Go3mf.C48_twice_false"
   ],
   "note": "Every interleaving of the goroutines at token granularity: success iff every part decodes on its own, the resources are those of its own part, and the goroutines end. Missing because the code violates it: context.Canceled may replace the real error, elements of Model.Any may be lost, a part referenced twice is decoded twice into the same resources (the _false theorems); C48_resources_partial therefore assumes distinct child paths."
  },
  {
   "property": "C49",
   "status": "partial",
   "theorems": [
    "Go3mf.C49_before_partial",
    "Go3mf.C49_later",
    "Go3mf.C49_prompt",
    "Go3mf.C49_children",
    "Go3mf.C49_stays",
    "Go3mf.C49_package_partial",
    "Go3mf.C49_packageLater",
    "Go3mf.C49_empty_false"
   ],
   "note": "Cancellation before and during decoding of the root part and of child parts. Missing because the code violates it: an empty root part decodes successfully with a done context (C49_empty_false)."
  },
  {
   "property": "C50",
   "status": "partial",
   "theorems": [
    "Go3mf.C50_parts",
    "Go3mf.C50_names",
    "Go3mf.C50_package",
    "Go3mf.C50_root_partial",
    "Go3mf.C50_child_partial",
    "Go3mf.C50_type_false",
    "Go3mf.C50_shared_false"
   ],
   "note": "Exactly one part per attachment, child and root; package relationships exact; part relationships without duplicates and with nothing lost, up to the type. Missing because the code violates it: a relationship with the same target and another type is dropped (C50_type_false, C50_shared_false). The OPC library is abstract."
  },
  {
   "property": "C51",
   "status": "partial",
   "theorems": [
    "Go3mf.C51_attachments_partial",
    "Go3mf.C51_relationships_partial",
    "Go3mf.C51_unreadable_false",
    "Go3mf.C51_roots_false",
    "Go3mf.C51_twice_false"
   ],
   "note": "Attachments recorded once up to case, and relationships on the owning part, for packages with one root relationship and distinct child parts. Missing because the code violates it: unreadable files, several root relationships, two relationships to one child part (the _false theorems). The OPC library is abstract."
  },
  {
   "property": "C52",
   "status": "proved",
   "theorems": [
    "Go3mf.C52_transparent",
    "Go3mf.C52_names"
   ],
   "note": "Interning of names is transparent for any sequence of names, including names longer than the inline array and names that collide in the cache."
  },
  {
   "property": "C53",
   "status": "partial",
   "theorems": [
    "Go3mf.C53_partial",
    "Go3mf.C53_core_partial",
    "Go3mf.C53_wrap",
    "Go3mf.C53_wrap_list",
    "Go3mf.C53_skip_false",
    "Go3mf.C53_segment_false",
    "Go3mf.C53_color_false",
    "Go3mf.C53_exact_partial",
    "Go3mf.C53_unmarshal_exact_partial"
   ],
   "note": "C53_partial: for every byte string, errors come in document order, each about an attribute of an element, with a path that ends at that element and consists of enclosing elements in order. C53_core_partial: the whole path for elements of the core specification in SafeDoc documents. C53_exact_partial, C53_unmarshal_exact_partial: for every document, mode and context, the path consists exactly of the names of the open elements that the decoder follows, as given by Spec.followed, which looks at the element names only. C53_wrap and C53_wrap_list: the wrapping loop. False in general: unknown elements are skipped (C53_skip_false), wrong index of segments (C53_segment_false) and of colours after a colour without value (C53_color_false). The indices in the cases where they are right are part of C60 (C60_bytes)."
  },
  {
   "property": "C54",
   "status": "partial",
   "theorems": [
    "Go3mf.C54_near_partial",
    "Go3mf.C54_far_false"
   ],
   "note": "All points with coordinates up to 2147 units. Missing because the code violates it: beyond int32 range all coordinates fall into one cell (C54_far_false, amd64 conversion)."
  },
  {
   "property": "C55",
   "status": "partial",
   "theorems": [
    "Go3mf.C55_package_partial",
    "Go3mf.C55_attachments_false",
    "Go3mf.C55_metadata_false",
    "Go3mf.C55_any_false",
    "Go3mf.C55_exact_partial"
   ],
   "note": "Whole packages (C55_package_partial; C55_exact_partial: without any loss if every number survives the precision): root part, child parts, relationships and attachments, for every map order and interleaving, and existence of a successful run. Missing because the code violates it: attachments without a relationship, name spaces of metadata of child objects, and Any elements of child models (the _false theorems). The OPC library is abstract and keeps absolute paths; identifiers of relationships are not compared."
  },
  {
   "property": "C56",
   "status": "partial",
   "theorems": [
    "Go3mf.C56_product",
    "Go3mf.C56_point",
    "Go3mf.C56_compose_partial",
    "Go3mf.C56_product_error",
    "Go3mf.C56_point_error",
    "Go3mf.C56_identity",
    "Go3mf.C56_translate_identity",
    "Go3mf.C56_translate",
    "Go3mf.C56_plane",
    "Go3mf.C56_order_false",
    "Go3mf.C56_compose_false",
    "Go3mf.C56_rounding_false",
    "Go3mf.C56_identity_false",
    "Go3mf.C56_compose_error",
    "Go3mf.C56_zero"
   ],
   "note": "Mul is the product (factors exchanged with respect to the documented layout, C56_order_false), exact for integers up to 2048, and within 2^-21 of the sum of absolute products plus 2^-147 for all finite results; same for Mul3D. Identity, Translate, Mul2D. Composition with an affine second factor is exact for integers up to 100, and for all finite results the two ways differ by the rounding errors only (C56_compose_error); it fails for a projective one (C56_compose_false), after rounding (C56_rounding_false) and for infinities (C56_identity_false)."
  },
  {
   "property": "C57",
   "status": "proved",
   "theorems": [
    "Go3mf.C57_vector",
    "Go3mf.C57_pair"
   ],
   "note": "Every history of calls."
  },
  {
   "property": "C58",
   "status": "partial",
   "theorems": [
    "Go3mf.C58_xpath",
    "Go3mf.C58_sentinel",
    "Go3mf.C58_leaf",
    "Go3mf.C58_wrapped",
    "Go3mf.C58_error",
    "Go3mf.C58_list",
    "Go3mf.C58_items",
    "Go3mf.C58_sort",
    "Go3mf.C58_nil",
    "Go3mf.C58_name_false",
    "Go3mf.C58_space_false",
    "Go3mf.C58_list_false"
   ],
   "note": "Injective for plain names (no '/', '[' or ':'), part names without spaces and elements of lists without line breaks, which are the characters that structure the texts; false otherwise (C58_name_false, C58_space_false, C58_list_false)."
  },
  {
   "property": "C59",
   "status": "partial",
   "theorems": [
    "Go3mf.C59_language",
    "Go3mf.C59_unambiguous",
    "Go3mf.C59_xml_partial",
    "Go3mf.C59_sections_false",
    "Go3mf.C59_values_false"
   ],
   "note": "The language of the reader is characterised exactly (C59_language, C59_unambiguous), up to the matching of tags, which is C24. The reading of XML 1.0 is proved for documents without comments, CDATA sections and document type declaration, which the reader rejects (C59_sections_false), and without tabs and line ends in attribute values, which the reader does not turn into blanks (C59_values_false)."
  },
  {
   "property": "C60",
   "status": "partial",
   "theorems": [
    "Go3mf.C60_root",
    "Go3mf.C60_child",
    "Go3mf.C60_strict",
    "Go3mf.C60_bytes",
    "Go3mf.C60_closed_false",
    "Go3mf.C60_slices_false",
    "Go3mf.C60_text_false",
    "Go3mf.C60_nested_false",
    "Go3mf.C60_twice_false",
    "Go3mf.C60_uint",
    "Go3mf.C60_float_malformed",
    "Go3mf.C60_float_big"
   ],
   "note": "C60_root, C60_child, C60_strict and C60_bytes: every document that meets the conditions is read as the model it describes, and exactly its faults are reported, with their paths and in order. The conditions exclude attributes outside of the schema on vertices, triangles and texture coordinates (C60_closed_false), attributes of other name spaces on elements of slices (C60_slices_false), metadata with more than one piece of text (C60_text_false), an unknown element in an element of the same name (C60_nested_false), faults in segments (C53_segment_false), colours without value (C53_color_false), elements that may be there only once but are there twice (C60_twice_false: the first of two meshes is lost), and what makes the decoder panic (C26). C60_uint, C60_float_malformed, C60_float_big: the values that malformed and too big numbers are read as."
  },
  {
   "property": "C61",
   "status": "partial",
   "theorems": [
    "Go3mf.C61_value",
    "Go3mf.C61_plain",
    "Go3mf.C61_schema_false",
    "Go3mf.C61_language",
    "Go3mf.C61_underscores",
    "Go3mf.C61_hex",
    "Go3mf.C61_long",
    "Go3mf.C61_long_false",
    "Go3mf.C61_hex_long"
   ],
   "note": "C61_value and C61_hex: every decimal and every hexadecimal number with an exponent below 10^5 gets the nearest float32, ties to even, and is out of range exactly when too big. C61_long and C61_hex_long: the same for exponents of any length if there are at most 9900 (2400) digits before and after the point. strconv cuts the exponent off, so that longer numbers can be wrong: C61_long_false is a text of the schema that denotes 1 and is read as 0. C61_language: exactly the numbers of Go (decimal, hexadecimal, underscores between digits, C61_underscores) and the words for infinities and NaN are accepted; C61_plain is the case without underscores and x. Texts outside of ST_Number are therefore accepted too (C61_schema_false)."
  },
  {
   "property": "C62",
   "status": "partial",
   "theorems": [
    "Go3mf.C62_package"
   ],
   "note": "C62_package: packages with one root relationship and child parts with distinct names, every interleaving, both modes, and existence of a run. The documents meet the conditions of C60. Excluded because the code violates it: two relationships to one part (C51), elements of extensions in the root element of a child part (C48); the names of metadata in child parts lose their name space (C55). The OPC library is abstract."
  },
  {
   "property": "C63",
   "status": "proved",
   "theorems": [
    "Go3mf.C63_exact",
    "Go3mf.C63_accepts"
   ],
   "note": "C63_exact: for every run that returns, membership of an error in the result is equivalent to a broken rule with the same location, message and part path; C63_accepts. Rules are those the code checks (C37 to C44 compare them with the specification). Order and multiplicity of the errors are not stated; termination is C66."
  },
  {
   "property": "C64",
   "status": "proved",
   "theorems": [
    "Go3mf.C64_part",
    "Go3mf.C64_package",
    "Go3mf.C64_heights_false",
    "Go3mf.C64_tilted_false"
   ],
   "note": "C64_part: root part, both directions and with the same errors; C64_package: acceptance of whole packages, under the conditions of C55 and with valid part names of the files. Spec.StableModel says which numbers must survive rounding; C64_heights_false and C64_tilted_false show that it is needed in both directions."
  },
  {
   "property": "C65",
   "status": "proved",
   "theorems": [
    "Go3mf.C65_twice",
    "Go3mf.C65_once",
    "Go3mf.C65_part",
    "Go3mf.C65_transform_false",
    "Go3mf.C65_radius_false",
    "Go3mf.C65_package_saves",
    "Go3mf.C65_package",
    "Go3mf.C65_package_again"
   ],
   "note": "C65_twice, C65_once (MarshalModel and UnmarshalModel), C65_part (the root part written by Encode); C65_package (whole packages: after two rounds the content, the child models, the relationships and the attachments do not change any more, for every map order and interleaving; after one round if no value becomes a default value by rounding), C65_package_saves and C65_package_again (every round succeeds if the library accepts the names). C65_transform_false and C65_radius_false: one round is not enough; a second radius of a beam that rounds to the radius of the lattice becomes the first radius the second time."
  },
  {
   "property": "C66",
   "status": "proved",
   "theorems": [
    "Go3mf.C66_exact",
    "Go3mf.C66_noSlices",
    "Go3mf.C66_acyclic_partial",
    "Go3mf.C66_cycle_false",
    "Go3mf.C66_path_false",
    "Go3mf.C66_unique"
   ],
   "note": "C66_exact: equivalence with the absence of an endless walk (Spec.Endless) for objects with slices; C66_noSlices; C66_unique: there is only one answer; C66_acyclic_partial gives the sufficient condition without reference to the walk. C66_cycle_false and C66_path_false: models that are accepted without the slices extension, on which validation with it never returns, the second without any cycle of components. The limit of the Go stack is not modelled: not returning stands for the overflow."
  },
  {
   "property": "C67",
   "status": "partial",
   "theorems": [
    "Go3mf.C67_valid_partial",
    "Go3mf.C67_binary_partial",
    "Go3mf.C67_ascii_partial",
    "Go3mf.C67_writable",
    "Go3mf.C67_saved_partial",
    "Go3mf.C67_production_false",
    "Go3mf.C67_zero_false",
    "Go3mf.C67_slices_false",
    "Go3mf.C67_package_partial",
    "Go3mf.C67_file_partial"
   ],
   "note": "The equivalence (C67_valid_partial, C67_binary_partial, C67_ascii_partial) is proved for models without production extension, without asset identifiers 0, and without slices outside of the root part; each of the three conditions is needed (C67_production_false, C67_zero_false, C67_slices_false). Saving as a part (C67_writable, C67_saved_partial) and as a package (C67_package_partial, C67_file_partial: the whole way from the bytes of the STL file to the model that is read from the package, which is accepted again and has the facets) is proved for all models that C28, C55 and C64 cover and coordinates up to 2147."
  },
  {
   "property": "C68",
   "status": "partial",
   "theorems": [
    "Go3mf.C68_writable_partial",
    "Go3mf.C68_saved_partial",
    "Go3mf.C68_element_false",
    "Go3mf.C68_attribute_false"
   ],
   "note": "C68_writable_partial: the model of a document can be written; C68_saved_partial: reading, saving, reading, saving and reading again, on bytes, with faults in the document. The conditions are those of C60 (nothing that is read wrongly or panics), prefixes declared in the root element only (C68_element_false and C68_attribute_false: other files are saved as files that cannot be read), names and texts of XML, attributes of the production extension with a UUID without braces, triangles without attributes of extensions, no text in unknown elements, no attributes on empty metadata groups, and unknown resources with a good identifier."
  },
  {
   "property": "C69",
   "status": "partial",
   "theorems": [
    "Go3mf.C69_encodes_partial",
    "Go3mf.C69_saved_partial",
    "Go3mf.C69_twice_false",
    "Go3mf.C69_prefix_false"
   ],
   "note": "C69_saved_partial: every interleaving of both readings, both modes, and existence of runs; C69_encodes_partial: Encode succeeds if the library accepts the names and types of the parts that were read. The conditions are those of C62 and C68, absolute names and targets, readable attachments whose names differ up to case, and a relationship to each texture and thumbnail that is used. Excluded because the code violates it: a child part that is the target of another relationship (C69_twice_false), a child part with a prefix that the root part does not declare (C69_prefix_false). The OPC library is abstract."
  },
  {
   "property": "C70",
   "status": "proved",
   "theorems": [
    "Go3mf.C70_complete",
    "Go3mf.C70_cause",
    "Go3mf.C70_beginning",
    "Go3mf.C70_success",
    "Go3mf.C70_marshal"
   ],
   "note": "C70_complete (no error implies everything was written, equal to the pure encodePkg), C70_cause (an error has a cause), C70_beginning (prefix property whatever fails), C70_success, C70_marshal. The bufio.Writer of the standard library (buffer of 4096 bytes, direct writes, sticky error) and each single call of the printer are modelled; writers may fail at any call after any number of bytes, under the contract of io.Writer. What the zip writer below the parts does is abstract: it is the writer that may fail."
  },
  {
   "property": "C71",
   "status": "partial",
   "theorems": [
    "Go3mf.C71_again_false",
    "Go3mf.C71_drained",
    "Go3mf.C71_again_partial",
    "Go3mf.C71_rewound_partial"
   ],
   "note": "The code violates it: C71_again_false (the attachments of the second package are empty). C71_drained: all streams are used up; C71_again_partial: the second package is exactly that of the model with empty attachments; C71_rewound_partial: the same package if the streams are put back, in particular if there are none."
  },
  {
   "property": "C72",
   "status": "partial",
   "theorems": [
    "Go3mf.C72_again",
    "Go3mf.C72_new",
    "Go3mf.C72_reuse_partial",
    "Go3mf.C72_reuse_false"
   ],
   "note": "The code violates it: C72_reuse_false (nonRootModels is not cleared, each child part is decoded once more, at the same time, into the same child model). C72_again: exactly the child parts of the earlier uses are added, the root part is the same; C72_reuse_partial: packages without child parts. Stated for processOPC, as two goroutines that decode into the same child model are a data race."
  },
  {
   "property": "C73",
   "status": "partial",
   "theorems": [
    "Go3mf.C73_reserve_false",
    "Go3mf.C73_any",
    "Go3mf.C73_reserve_partial"
   ],
   "note": "The code violates it: C73_reserve_false (84 bytes make it allocate memory for 2^32 - 1 triangles), C73_any (any number in the header). C73_reserve_partial: files that are read without an error; the allocation is exact."
  },
  {
   "property": "C74",
   "status": "partial",
   "theorems": [
    "Go3mf.C74_parts",
    "Go3mf.C74_background",
    "Go3mf.C74_attachment_false",
    "Go3mf.C74_empty_false",
    "Go3mf.C74_root_false"
   ],
   "note": "C74_parts and C74_background: the root part and all the child parts were read to their ends, their sources returned io.EOF, and they are markup with an event for each tag, whose tags balance. The rest is violated by the code: an attachment that cannot be read is left out silently while its relationship is kept (C74_attachment_false), an empty part or a document of another kind is an empty model (C74_empty_false), and several models in a row or a model in another element are read as one model (C74_root_false)."
  },
  {
   "property": "C75",
   "status": "partial",
   "theorems": [
    "Go3mf.C75_part",
    "Go3mf.C75_package",
    "Go3mf.C75_units_false",
    "Go3mf.C75_required_false",
    "Go3mf.C75_index_false",
    "Go3mf.C75_attachment_false",
    "Go3mf.C75_child_false"
   ],
   "note": "C75_part (one part, every token sequence) and C75_package (every run of Decode): nothing in the root part, the attachments and the relationships is lost, and with C75_part nothing in a child part. Violated by the code: a child part of the same name is emptied (C75_child_false), an attachment of the same name is not read (C75_attachment_false), a document without unit gets the unit of the old model (C75_units_false), the extension that is marked as required is the one of the old model with the same prefix (C75_required_false), and the indices in the errors are those in the model (C75_index_false)."
  },
  {
   "property": "C76",
   "status": "partial",
   "theorems": [
    "Go3mf.C76_partial",
    "Go3mf.C76_root",
    "Go3mf.C76_full",
    "Go3mf.C76_separate",
    "Go3mf.C76_shared_false"
   ],
   "note": "Slices are modelled as windows of shared arrays (Model/Share.lean). The code violates the claim: AddRelationship appends to the slice of the child model itself, while the root part works on a copy; C76_shared_false: saving two child models whose relationships are rels[:1] and rels[:2] changes the second model and writes wrong relationships for it. C76_partial: correct relationships and no change for all slices that do not see the spare cells of a child model; C76_root (no child models), C76_full (slices without spare capacity), C76_separate (slices in different arrays, as decoding makes them)."
  },
  {
   "property": "C77",
   "status": "proved",
   "theorems": [
    "Go3mf.C77_runs",
    "Go3mf.C77_closed",
    "Go3mf.C77_attachments"
   ],
   "note": "C77_closed: every run that returns, all outcomes; C77_attachments: at most one opening of a part that can be read for the attachments; C77_runs: the runs with a log of the calls are exactly the runs of DecodeContext. Panics end the program and are outside (see C26)."
  },
  {
   "property": "C78",
   "status": "proved",
   "theorems": [
    "Go3mf.C78_inTime",
    "Go3mf.C78_kept",
    "Go3mf.C78_package",
    "Go3mf.C78_close"
   ],
   "note": "C78_inTime: all calls are in time. C78_kept: the file has what the calls gave. C78_package: the package is the one of encodeIO (C70), so this is what is saved. C78_close: Close is the last call, made exactly if nothing has failed. That the library writes the relationships of a part when the next one is created, and takes no content after that, is an assumption about github.com/qmuntal/opc, which is not in the repository; the example at the end shows that with it the order matters."
  },
  {
   "property": "C79",
   "status": "proved",
   "theorems": [
    "Go3mf.C79_transparent",
    "Go3mf.C79_memory",
    "Go3mf.C79_bound"
   ],
   "note": "C79_transparent: the reader with linked records and a free list (Model/XmlStack.lean) delivers the events and the error of the reader with a list (Model/Xml.lean), on which all other properties rest. C79_memory and C79_bound: the number of records."
  },
  {
   "property": "C80",
   "status": "proved",
   "theorems": [
    "Go3mf.C80_attributes",
    "Go3mf.C80_overwritten"
   ],
   "note": "C80_attributes: arrays of the buffers with numbers, slices as number and length (Model/AttrPool.lean). C80_overwritten: a value kept after the handler returned is overwritten by the next tag; the handlers of the repository copy all values."
  },
  {
   "property": "C81",
   "status": "partial",
   "theorems": [
    "Go3mf.C81_exclusive",
    "Go3mf.C81_latest",
    "Go3mf.C81_order",
    "Go3mf.C81_progress",
    "Go3mf.C81_parallel",
    "Go3mf.C81_twice_false",
    "Go3mf.C81_nil_false"
   ],
   "note": "C81_exclusive, C81_latest, C81_order, C81_progress and C81_parallel: no race, the registry behaves like an atomic one, no deadlock (Model/Registry.lean). Missing because the code violates its documentation: Register does not panic for the second registration (C81_twice_false), nor for a nil extension (C81_nil_false), after which Load reports an extension that is nil."
  },
  {
   "property": "C82",
   "status": "partial",
   "theorems": [
    "Go3mf.C82_once_partial",
    "Go3mf.C82_reads",
    "Go3mf.C82_shared_false",
    "Go3mf.C82_append_false"
   ],
   "note": "Model/ErrHeap.lean has the four in-place operations on a memory of cells. C82_once_partial: every expression that uses each error once, as the validators and the decoder do, reads afterwards as the value computed by the pure functions of Model/Errors.lean (on which C14, C15, C53, C58 and C63 rest), and all cells that existed before are unchanged; C82_reads: what is read is determined. Missing: errors that are used twice. The code violates the claim for them: C82_shared_false (an error that is wrapped for two objects shows both places in both results), C82_append_false (Append extends the list that the caller still holds). A validator of a private extension that returns the same *Error for two elements is reported with wrong places."
  },
  {
   "property": "C83",
   "status": "partial",
   "theorems": [
    "Go3mf.C83_reports",
    "Go3mf.C83_nil",
    "Go3mf.C83_list",
    "Go3mf.C83_builtin",
    "Go3mf.C83_undeclared_false",
    "Go3mf.C83_typedNil_false"
   ],
   "note": "Model/ValidateSpec.lean has Validate with any registry of extensions and Go error values. C83_reports: the reported errors are, as a multiset, those without validators and all answers of the declared extensions about the model and each asset and object of each part, with their places. C83_nil: nil is returned exactly if that is so without validators and all answers are nil. C83_list: the result is nil or a list. C83_builtin: with the four built-in extensions this is the Validate of Model/Validate.lean, on which the other properties about validation rest. Missing: extensions that are registered but not declared. The code violates the claim for them, C83_undeclared_false: they are not asked although spec/spec.go:51-52 says so. C83_typedNil_false: a validator that returns a nil *List makes Validate return an error without any error in it."
  },
  {
   "property": "C84",
   "status": "partial",
   "theorems": [
    "Go3mf.C84_open",
    "Go3mf.C84_read",
    "Go3mf.C84_close",
    "Go3mf.C84_save",
    "Go3mf.C84_streams",
    "Go3mf.C84_resave",
    "Go3mf.C84_roundtrip_partial",
    "Go3mf.C84_kept_partial",
    "Go3mf.C84_kept_false",
    "Go3mf.C84_put"
   ],
   "note": "C84_open, C84_read, C84_close, C84_save, C84_streams and C84_resave are proved in full. The last claim is false: CreateWriter truncates the old file before it is known whether the model can be saved (C84_kept_false); C84_kept_partial: nothing changes if CreateWriter itself returns an error. C84_roundtrip_partial is partial because it needs the conditions of C55."
  },
  {
   "property": "C85",
   "status": "partial",
   "theorems": [
    "Go3mf.C85_part",
    "Go3mf.C85_mark",
    "Go3mf.C85_declaration",
    "Go3mf.C85_utf16_false",
    "Go3mf.C85_latin_false"
   ],
   "note": "C85_part and C85_mark: the byte order mark (and any other text before the first tag) is ignored. The rest is violated by the code: every UTF-16 document is a syntax error (C85_utf16_false, for all documents that begin with < and a character below U+0100), the XML declaration is ignored (C85_declaration), and a document in ISO-8859-1 is read without an error as names that are not UTF-8 (C85_latin_false)."
  },
  {
   "property": "C86",
   "status": "partial",
   "theorems": [
    "Go3mf.C86_same_partial",
    "Go3mf.C86_order_false",
    "Go3mf.C86_relationships_false"
   ],
   "note": "C86_same_partial: the success of Encode does not depend on the orders, and the packages have the same parts with the same names, types, bytes and relationships. The order of the parts and of the relationships of the root part does depend on them (C86_order_false, C86_relationships_false): two runs do not give the same file. The random ids that the library gives to relationships without id are not modelled."
  },
  {
   "property": "C87",
   "status": "proved",
   "theorems": [
    "Go3mf.C87_validate",
    "Go3mf.C87_find",
    "Go3mf.C87_coherency",
    "Go3mf.C87_box"
   ],
   "note": "C87_validate, C87_find, C87_box; C87_coherency for meshes with less than 2^32 edges. The walks are in C04_map_order."
  },
  {
   "property": "C88",
   "status": "partial",
   "theorems": [
    "Go3mf.C88_texts",
    "Go3mf.C88_zero",
    "Go3mf.C88_units_partial",
    "Go3mf.C88_type_partial",
    "Go3mf.C88_resolution_partial",
    "Go3mf.C88_lattice_partial",
    "Go3mf.C88_texture_false",
    "Go3mf.C88_cap_false",
    "Go3mf.C88_blend_false"
   ],
   "note": "C88_texts and C88_zero: all nine tables; any other number has an empty text. C88_units_partial, C88_type_partial, C88_resolution_partial, C88_lattice_partial: read back or reported, for units, object types, mesh resolutions and the modes of a lattice. Violated by the code for textures (C88_texture_false), caps of beams (C88_cap_false) and blend methods, where the methods of later layers move to earlier ones (C88_blend_false), all without an error."
  },
  {
   "property": "C89",
   "status": "partial",
   "theorems": [
    "Go3mf.C89_box_false",
    "Go3mf.C89_box_partial",
    "Go3mf.C89_slices_false"
   ],
   "note": "Violated by the code: C89_box_false gives, for every n, an accepted model with n+1 objects and 2n components for which 2^(n+1)-1 calls are made, and C89_slices_false the same for the recursion of the slices validator; a file of a few kilobytes stops a program that asks for its bounding box. C89_box_partial: with at most w components per object and depth d there are at most 1+w+...+w^(d-1) calls. The counters do not change the results (boxCalls_fst, objectPlanarCalls_fst)."
  },
  {
   "property": "C90",
   "status": "proved",
   "theorems": [
    "Go3mf.C90_open",
    "Go3mf.C90_all",
    "Go3mf.C90_text"
   ],
   "note": "The bytes are counted by functions of the property file (openBytes, allBytes). Name spaces are not counted: the reader hands out the same string for every element under a declaration and does not copy it. The number of tokens is bounded by the same count only for elements and attributes; C79 bounds the records that the reader keeps."
  },
  {
   "property": "C91",
   "status": "partial",
   "theorems": [
    "Go3mf.C91_core_partial",
    "Go3mf.C91_unmarshal_partial",
    "Go3mf.C91_skipped_false"
   ],
   "note": "C91_skipped_false is the counterexample. C91_core_partial assumes that the document has one model element, its root, and no core element inside an element of another name space, and that both decodes return (a registered extension can panic on attributes of elements that it does not know, see C26). The errors and, in strict mode, the point at which decoding stops do depend on the registered extensions. The built-in extensions are the ones that can be registered in the model."
  },
  {
   "property": "C92",
   "status": "proved",
   "theorems": [
    "Go3mf.C92_pass",
    "Go3mf.C92_chain",
    "Go3mf.C92_part",
    "Go3mf.C92_foreign_false"
   ],
   "note": "Lemmas/Forget.lean replaces the content of unregistered extensions by its tokens and shows that the written tokens are the same; C92_pass, C92_chain and C92_part. C92_foreign_false: a document with two elements of extensions in a mesh, which this library does not write."
  },
  {
   "property": "C93",
   "status": "partial",
   "theorems": [
    "Go3mf.C93_numbers",
    "Go3mf.C93_after",
    "Go3mf.C93_product",
    "Go3mf.C93_sum",
    "Go3mf.C93_nan_false",
    "Go3mf.C93_overflow_false"
   ],
   "note": "Proved: what the box of a mesh is in each coordinate, for all values. Without NaN it covers all vertices, infinite or not, and its ends are values of vertices, or the greatest finite number if all values are the same infinity (C93_numbers); with a NaN it is the least box of the vertices after the last NaN, and NaN if there is none (C93_after). Products and sums are NaN exactly for 0 times an infinity and for opposite infinities, and otherwise have the right sign (C93_product, C93_sum). Not true of the code, shown by witnesses that Validate accepts: a vertex with finite coordinates is outside of the box because the next vertex has NaN (C93_nan_false); with finite coordinates and transforms a product overflows, and the other item is in the box or not, depending on the schedule (C93_overflow_false)."
  },
  {
   "property": "C94",
   "status": "partial",
   "theorems": [
    "Go3mf.C94_root",
    "Go3mf.C94_child",
    "Go3mf.C94_bytes",
    "Go3mf.C94_order_false",
    "Go3mf.C94_alias_false",
    "Go3mf.C94_comment_false",
    "Go3mf.C94_name_false",
    "Go3mf.C94_package"
   ],
   "note": "Proved for documents that meet the conditions of C60, for the root part, child parts, texts of bytes and whole packages under every schedule (C94_root, C94_child, C94_bytes, C94_package): the relation SameContent closes under permuting the attributes that have a meaning of their own, dropping and inserting nodes without a meaning, exchanging elements of different names of which one is not an asset or free element, at every depth. Not true of the code otherwise, by witnesses: the order of attributes of a slice decides as their name space is ignored (C94_order_false); of minlength and precision the last one counts (C94_alias_false); a processing instruction cuts the text of metadata and a comment ends the reading (C94_comment_false); an element without a meaning that has the name of the element around it ends it (C94_name_false)."
  },
  {
   "property": "C95",
   "status": "partial",
   "theorems": [
    "Go3mf.C95_root",
    "Go3mf.C95_child",
    "Go3mf.C95_bytes",
    "Go3mf.C95_equal",
    "Go3mf.C95_validate",
    "Go3mf.C95_checked",
    "Go3mf.C95_metadata_false",
    "Go3mf.C95_validate_false",
    "Go3mf.C95_declaration_false",
    "Go3mf.C95_package"
   ],
   "note": "Proved for parts that meet the conditions of C60 (C95_root, C95_bytes): a document with renamed prefixes is read with exactly the same errors as the model in which the prefixes of the extensions and the names of metadata are renamed, everything else is equal (C95_equal); the same for child parts (C95_child) and for whole packages under every schedule, with other prefixes in each part (C95_package); and Validate answers the same if no metadata has a prefix (C95_validate, C95_checked). Not true of the code otherwise, by witnesses: the name of metadata is stored with the prefix instead of the name space (C95_metadata_false), so whether the model is valid depends on the prefix (C95_validate_false), and an extension that is declared at an inner element is read but its validator is not run (C95_declaration_false)."
  },
  {
   "property": "C96",
   "status": "partial",
   "theorems": [
    "Go3mf.C96_parts",
    "Go3mf.C96_alike",
    "Go3mf.C96_object",
    "Go3mf.C96_box",
    "Go3mf.C96_box_false",
    "Go3mf.C96_slices_false"
   ],
   "note": "Proved of Validate for changes in each part on its own if the slices extension is not declared (C96_parts), with all extensions for changes in all parts alike (C96_alike), and of the bounding box of an object and of a model for changes in all parts alike (C96_object, C96_box). Not true of the code for changes in one part only: Object.boundingBox and validateObjectTransforms go on searching nested components in the part of the outermost object, so the box of an object depends on the numbers of another part (C96_box_false), and Validate rejects a valid sliced model because an object of another part has the same number (C96_slices_false)."
  },
  {
   "property": "C97",
   "status": "partial",
   "theorems": [
    "Go3mf.C97_located",
    "Go3mf.C97_found",
    "Go3mf.C97_unused",
    "Go3mf.C97_box",
    "Go3mf.C97_box_false",
    "Go3mf.C97_slices_false"
   ],
   "note": "Proved of the errors for any number of parts if the slices extension is not declared and no child part has the empty path (C97_located; new objects may even repeat identifiers, which is then reported at them), of lookups always (C97_found), of additions with UnusedID if the identifiers are non-zero and distinct as in C01 (C97_unused), and of the box for models of one part (C97_box). Not true of the code otherwise, by witnesses: with child parts, a new object of the root part is taken for one of a child part with the same identifier, which changes the box of old objects (C97_box_false) and, with slices, makes Validate reject an old object (C97_slices_false)."
  },
  {
   "property": "C98",
   "status": "proved",
   "theorems": [
    "Go3mf.C98_accepts",
    "Go3mf.C98_found",
    "Go3mf.C98_box",
    "Go3mf.C98_lattice_false"
   ],
   "note": "C98_accepts (with all extensions, any number of parts; the distinctness of identifiers follows from acceptance), C98_found and C98_box (for distinct identifiers). C98_lattice_false shows that the condition on beam lattices is needed. The errors of rejected models carry positions, so they are not compared. C98_box rests on Par.result_iff: every order of the updates of the goroutines is that of some schedule."
  },
  {
   "property": "C99",
   "status": "proved",
   "theorems": [
    "Go3mf.C99_accepts",
    "Go3mf.C99_found",
    "Go3mf.C99_items",
    "Go3mf.C99_object",
    "Go3mf.C99_asset",
    "Go3mf.C99_missed_false",
    "Go3mf.C99_box",
    "Go3mf.C99_box_false"
   ],
   "note": "C99_accepts (all extensions, any number of parts, for models with unique child paths, none of them empty), C99_found, C99_items, C99_object and C99_asset. C99_missed_false shows that the condition on references is needed. C99_box: the box of some of the items (at least one) lies in the old box under any schedules, if no coordinate is NaN; C99_box_false: without items it is the origin, which need not lie in it."
  },
  {
   "property": "C100",
   "status": "partial",
   "theorems": [
    "Go3mf.C100_cut_partial",
    "Go3mf.C100_unmarshal_partial",
    "Go3mf.C100_empty_false",
    "Go3mf.C100_binary",
    "Go3mf.C100_ascii_false",
    "Go3mf.C100_ascii_partial",
    "Go3mf.C100_number_false",
    "Go3mf.C100_package_partial"
   ],
   "note": "C100_cut_partial and C100_unmarshal_partial: a model part that is cut is not read without an error, or no element is left, or the result is the same; C100_binary: every binary STL file that is cut is an error. The claim fails for a model part that is cut before its root element, which is read as an empty model without an error (C100_empty_false), and for ASCII STL files, which lose triangles (C100_ascii_false) or get another vertex (C100_number_false) without an error. C100_ascii_partial: cut at the end of a line, such a file gives the first vertices and triangles of the whole one. C100_package_partial: if a package with cut parts is read without an error, no part has lost anything but text, except for parts without any element; the package itself is opened by the OPC library, which is abstract. The context is never done."
  },
  {
   "property": "C101",
   "status": "partial",
   "theorems": [
    "Go3mf.C101_same_partial",
    "Go3mf.C101_header_false"
   ],
   "note": "C101_same_partial, for files of at least 300 bytes of which the format is told right and whose lines are shorter than 65536 bytes, with a context that is never done; there is no bound on the number of vertices. Corners are compared as the numbers that are read. Violated by the code for other files: C101_header_false, where a header that starts with \"solid\" makes the importer drop all facets without an error."
  },
  {
   "property": "C102",
   "status": "partial",
   "theorems": [
    "Go3mf.C102_part_partial",
    "Go3mf.C102_child_partial",
    "Go3mf.C102_marshal_partial",
    "Go3mf.C102_escape",
    "Go3mf.C102_prefix_false",
    "Go3mf.C102_triangle_false",
    "Go3mf.C102_reread_false"
   ],
   "note": "C102_part_partial, C102_child_partial and C102_marshal_partial, for models the names of which are texts: prefixes of extensions, names of unknown attributes and elements, and names and values of the additional attributes of triangles. Values, metadata, texts and paths are arbitrary bytes; C102_escape is the core. Violated by the code without these conditions: C102_prefix_false (prefixes are copied), C102_triangle_false (attributes of triangles are not escaped), C102_reread_false (the reader accepts such a prefix, and the model read is written as invalid UTF-8)."
  },
  {
   "property": "C103",
   "status": "partial",
   "theorems": [
    "Go3mf.C103_model_partial",
    "Go3mf.C103_child_partial",
    "Go3mf.C103_triangle_false",
    "Go3mf.C103_prefix_false",
    "Go3mf.C103_read_partial",
    "Go3mf.C103_tags_partial"
   ],
   "note": "C103_model_partial and C103_child_partial, for the start elements passed to the XML writer and their expanded names, and C103_read_partial and C103_tags_partial for the tags of the document, with the names as they are read and as they are written (there with the conditions of C28 on texts and names), if the additional attributes of each element are distinct and in a name space, the prefixes are distinct and triangles have no additional attributes. Violated by the code otherwise: C103_triangle_false (two triangles, each with the same one unknown attribute: the second is written with it twice and without its pid) and C103_prefix_false (a prefix is declared twice)."
  },
  {
   "property": "C104",
   "status": "partial",
   "theorems": [
    "Go3mf.C104_part_partial",
    "Go3mf.C104_marshal_partial",
    "Go3mf.C104_child_partial",
    "Go3mf.C104_alike_partial",
    "Go3mf.C104_escape",
    "Go3mf.C104_prefix_false",
    "Go3mf.C104_triangle_false",
    "Go3mf.C104_package_partial"
   ],
   "note": "C104_part_partial, C104_marshal_partial, C104_child_partial, C104_package_partial and C104_alike_partial, for models that can be written (Writable), whose names are texts (NamedModel) and whose additional attributes are distinct (DistinctModel); C104_escape for all strings. The grammar is Spec.WellFormed, written from the recommendation. Violated by the code otherwise: C104_prefix_false (a prefix that is not a name is written as it is) and C104_triangle_false (the values of the attributes of triangles are not escaped). All prefixes are declared in the root element."
  },
  {
   "property": "C105",
   "status": "partial",
   "theorems": [
    "Go3mf.C105_marshal_partial",
    "Go3mf.C105_part_partial",
    "Go3mf.C105_child_partial",
    "Go3mf.C105_thumbnail_false",
    "Go3mf.C105_object_false",
    "Go3mf.C105_only_partial",
    "Go3mf.C105_package_partial"
   ],
   "note": "C105_marshal_partial, C105_part_partial, C105_child_partial and C105_package_partial, for models that can be written (Writable), whose additional attributes are distinct and in a name space (DistinctModel), without thumbnail and with a mesh or components in every object. The schema is Spec.Schema, written from the core specification; the smallest numbers of elements and the types of the values are left out. Violated by the code otherwise: C105_thumbnail_false (the thumbnail of a model becomes an attribute of the root element, which the schema does not have) and C105_object_false (an object without shape is written as an empty element). C105_only_partial: these are the only deviations."
  },
  {
   "property": "C106",
   "status": "partial",
   "theorems": [
    "Go3mf.C106_only_partial",
    "Go3mf.C106_marshal_partial",
    "Go3mf.C106_part_partial",
    "Go3mf.C106_child_partial",
    "Go3mf.C106_package_partial",
    "Go3mf.C106_valid_partial"
   ],
   "note": "C106_marshal_partial, C106_part_partial, C106_child_partial and C106_package_partial, under the hypotheses of C105, and C106_valid_partial, where the validation takes the place of the hypothesis on objects, and C106_only_partial without these hypotheses (the root element and the objects are part of the statement, and C105 shows where the code violates the schema of the core). The schemas are Schema.colorgroup and so on in Spec.Schema; the smallest numbers of elements, the types of the values, the rule that a slice stack has not both slices and references, and the attributes of the production extension are left out."
  }
 ]
}