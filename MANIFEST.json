{
 "claims": [
  {
   "property": "C01",
   "status": "proved",
   "theorems": [
    "Verif.Sha.C01_add_getHash",
    "Verif.Sha.C01_call",
    "Verif.Sha.C01_text_length",
    "Verif.Sha.primes_spec",
    "Verif.Sha.K_spec",
    "Verif.Sha.H0_spec"
   ],
   "note": "Unrolled C++ compression function, padding and hex output equal FIPS 180-4; no bound on the length."
  },
  {
   "property": "C02",
   "status": "proved",
   "theorems": [
    "Verif.Sha.C02_history",
    "Verif.Sha.C02_cut_independent"
   ],
   "note": "All histories of add/getHash."
  },
  {
   "property": "C03",
   "status": "partial",
   "theorems": [
    "Verif.Zip.C03_add_then_read",
    "Verif.Zip.C03_add_then_read_stored",
    "Verif.Zip.C03_empty_file_violated",
    "Verif.Zip.C03_end_signature_violated",
    "Verif.Zip.C03_long_name_violated"
   ],
   "note": "Holds within the limits of InLimits; violated for empty stored files (reported as failure although written), for names over 1024 bytes, and for a local part of exactly 0x06054b50 bytes. zlib is assumed lossless where compression is on."
  },
  {
   "property": "C04",
   "status": "partial",
   "theorems": [
    "Verif.Zip.C04_listing",
    "Verif.Zip.C04_names_once",
    "Verif.Zip.C04_unknown_name_violated"
   ],
   "note": "Listing proved within the limits; continuing after a name that is not in the archive may succeed."
  },
  {
   "property": "C05",
   "status": "proved",
   "theorems": [
    "Verif.Zip.C05_duplicate_refused",
    "Verif.Zip.C05_read_mode"
   ],
   "note": ""
  },
  {
   "property": "C06",
   "status": "partial",
   "theorems": [
    "Verif.Zip.C06_info_missing",
    "Verif.Zip.C06_get_missing_violated",
    "Verif.Zip.C06_get_missing_ub_violated"
   ],
   "note": "GetFileInfo reports a missing file; GetFile works on uninitialised information."
  },
  {
   "property": "C07",
   "status": "partial",
   "theorems": [
    "Verif.Zip.C07_remove_only_partial",
    "Verif.Zip.C07_remove_violated",
    "Verif.Zip.C07_read_mode_violated",
    "Verif.Zip.C07_missing_violated"
   ],
   "note": "The property is false of the code: only the removal of the single file of an archive works."
  },
  {
   "property": "C08",
   "status": "partial",
   "theorems": [
    "Verif.Zip.C08_extension_violated"
   ],
   "note": "The property is false of the code: the search never runs."
  },
  {
   "property": "C09",
   "status": "proved",
   "theorems": [
    "Verif.Uuid.C09_braced",
    "Verif.Uuid.C09_bare",
    "Verif.Uuid.C09_converter",
    "Verif.Uuid.C09_injective",
    "Verif.Uuid.C09_spaced",
    "Verif.Uuid.C09_mvr_words",
    "Verif.Uuid.C09_words_back",
    "Verif.Uuid.C09_array",
    "Verif.Uuid.C09_iid"
   ],
   "note": "Every UUID survives writing and reading through each of the textual and numeric forms."
  },
  {
   "property": "C10",
   "status": "partial",
   "theorems": [
    "Verif.Uuid.C10_gdtf_dashes_violated",
    "Verif.Uuid.C10_nonhex_violated",
    "Verif.Uuid.C10_mvr_partial",
    "Verif.Uuid.C10_gdtf_partial"
   ],
   "note": "The code violates the full statement: misplaced dashes and non-hexadecimal digits are accepted silently. What is reported is characterised by the partial theorems."
  },
  {
   "property": "C100",
   "status": "partial",
   "theorems": [
    "Verif.Geo.C100_no_partial",
    "Verif.Geo.C100_or_zero_partial",
    "Verif.Geo.C100_cancelled_violated"
   ],
   "note": "Holds as long as the function says no; whatever it says, the footprint is right or 0. Violated: once it says yes, the footprint of every break of every fixture of the process is 0, without an error."
  },
  {
   "property": "C11",
   "status": "proved",
   "theorems": [
    "Verif.Dmx.C11_roundtrip",
    "Verif.Dmx.C11_none"
   ],
   "note": "For every rounding with the properties of IEEE doubles (structure Fl, instance ieee)."
  },
  {
   "property": "C12",
   "status": "partial",
   "theorems": [
    "Verif.Dmx.C12_in_range",
    "Verif.Dmx.C12_zero",
    "Verif.Dmx.C12_full",
    "Verif.Dmx.C12_monotone",
    "Verif.Dmx.C12_accuracy",
    "Verif.Dmx.C12_exact",
    "Verif.Dmx.C12_8_16_8",
    "Verif.Dmx.C12_shift_up",
    "Verif.Dmx.C12_shift_down",
    "Verif.Dmx.C12_too_big",
    "Verif.Dmx.C12_no_slash",
    "Verif.Dmx.C12_bad_resolution_violated"
   ],
   "note": "Everything is proved for byte counts 1 to 4. Byte counts outside this range are accepted silently and give 0 (violation proved)."
  },
  {
   "property": "C13",
   "status": "partial",
   "theorems": [
    "Verif.Text.C13_roundtrip",
    "Verif.Text.C13_dotted",
    "Verif.Text.C13_report_partial",
    "Verif.Text.C13_report_plain_partial",
    "Verif.Text.C13_truncation_violated"
   ],
   "note": "Round trip proved; texts whose value does not fit 16 bits are truncated silently (violation proved)."
  },
  {
   "property": "C14",
   "status": "proved",
   "theorems": [
    "Verif.Text.C14_split",
    "Verif.Text.C14_join",
    "Verif.Text.C14_zero"
   ],
   "note": ""
  },
  {
   "property": "C15",
   "status": "proved",
   "theorems": [
    "Verif.Text.C15_roundtrip",
    "Verif.Text.C15_text"
   ],
   "note": ""
  },
  {
   "property": "C16",
   "status": "partial",
   "theorems": [
    "Verif.Text.C16_roundtrip",
    "Verif.Text.C16_text",
    "Verif.Text.C16_missing_partial",
    "Verif.Text.C16_empty_part_violated"
   ],
   "note": "Round trip proved; empty parts are accepted silently (violation proved)."
  },
  {
   "property": "C17",
   "status": "proved",
   "theorems": [
    "Verif.Text.C17_roundtrip",
    "Verif.Text.C17_noprefix",
    "Verif.Text.C17_nonhex",
    "Verif.Text.C17_value",
    "Verif.Text.C17_wrap_violated"
   ],
   "note": "The wrap-around beyond 64 bits is outside the property and proved separately."
  },
  {
   "property": "C18",
   "status": "proved",
   "theorems": [
    "Verif.Enum.C18_PrimitiveType",
    "Verif.Enum.C18_Special",
    "Verif.Enum.C18_PhysicalUnit",
    "Verif.Enum.C18_BeamType",
    "Verif.Enum.C18_LampType",
    "Verif.Enum.C18_DmxSnap",
    "Verif.Enum.C18_DmxMaster",
    "Verif.Enum.C18_DmxRelationType",
    "Verif.Enum.C18_ColorSample",
    "Verif.Enum.C18_ColorSpace",
    "Verif.Enum.C18_InterpolationTo",
    "Verif.Enum.C18_SourceType",
    "Verif.Enum.C18_ScaleHandlingType",
    "Verif.Enum.C18_LaserColorType",
    "Verif.Enum.C18_ComponentType",
    "Verif.Enum.C18_Orientation",
    "Verif.Enum.C18_FuseRating",
    "Verif.Enum.C18_StructureType",
    "Verif.Enum.C18_CrossSectionType",
    "Verif.Enum.C18_SupportType",
    "Verif.Enum.C18_SubPhysicalUnitType",
    "Verif.Enum.C18_TransmissionType",
    "Verif.Enum.C18_CanHaveChildren",
    "Verif.Enum.C18_bool",
    "Verif.Enum.C18_empty"
   ],
   "note": "The tables are transcribed from the source for all 22 enumerations; RDM enumerations have no converter."
  },
  {
   "property": "C19",
   "status": "proved",
   "theorems": [
    "Verif.Real.C19_gdtf",
    "Verif.Real.C19_mvr",
    "Verif.Real.C19_exact",
    "Verif.Real.C19_layout",
    "Verif.Real.C19_rotation",
    "Verif.Real.C19_total"
   ],
   "note": "For every matrix; number printing is the concrete six-decimal printer of C47."
  },
  {
   "property": "C20",
   "status": "partial",
   "theorems": [
    "Verif.Xchg.C20_send",
    "Verif.Xchg.C20_receive_partial",
    "Verif.Xchg.C20_bad_magic",
    "Verif.Xchg.C20_roundtrip_partial"
   ],
   "note": "All header fields and every body of at most 31457253 bytes survive; larger bodies overflow the receiving buffer (see C21)."
  },
  {
   "property": "C21",
   "status": "partial",
   "theorems": [
    "Verif.Xchg.C21_receive_overflow_violated",
    "Verif.Xchg.C21_receive_wrap_violated",
    "Verif.Xchg.C21_receive_partial",
    "Verif.Xchg.C21_append_partial",
    "Verif.Xchg.C21_growTo_violated"
   ],
   "note": "Violated: bodies over 31457253 bytes, an announced length of 2^64-1 and GrowTo followed by GrowTo and Append all leave the allocation. Proved safe: announced lengths up to 31457253, and every history of FromBuffer/Append/DisposeBuffer."
  },
  {
   "property": "C22",
   "status": "partial",
   "theorems": [
    "Verif.Xchg.C22_join",
    "Verif.Xchg.C22_join_unknown",
    "Verif.Xchg.C22_once_partial",
    "Verif.Xchg.C22_leave_violated",
    "Verif.Xchg.C22_leave_never_violated",
    "Verif.Xchg.C22_leave_unknown_violated",
    "Verif.Xchg.C22_history_violated",
    "Verif.Xchg.C22_twice_violated",
    "Verif.Xchg.C22_other_group_violated",
    "Verif.Xchg.C22_moved_violated",
    "Verif.Xchg.C22_members_discovered",
    "Verif.Xchg.C22_connect",
    "Verif.Sched.C22_schedules"
   ],
   "note": "Violated: LEAVE never removes a station with a UUID, early JOINs duplicate, other groups are not checked. Joins, provenance and connecting are proved for all states and histories."
  },
  {
   "property": "C23",
   "status": "partial",
   "theorems": [
    "Verif.Xchg.C23_all",
    "Verif.Xchg.C23_addressed",
    "Verif.Xchg.C23_addressed_count",
    "Verif.Xchg.C23_once_partial",
    "Verif.Xchg.C23_adapters_violated",
    "Verif.Xchg.C23_recipients",
    "Verif.Xchg.C23_not_self_partial"
   ],
   "note": "The addressed stations are exactly the recipients; a station with several adapters gets one copy per adapter (violated). Not sending to ourselves holds if discovery was filtered against the present sockets."
  },
  {
   "property": "C24",
   "status": "proved",
   "theorems": [
    "Verif.Name.C24_clean",
    "Verif.Name.C24_result_valid",
    "Verif.Name.C24_untouched_iff",
    "Verif.Name.C24_idempotent",
    "Verif.Name.C24_dot_allowed"
   ],
   "note": ""
  },
  {
   "property": "C25",
   "status": "proved",
   "theorems": [
    "Verif.Chan.C25_increasing",
    "Verif.Chan.C25_contiguous",
    "Verif.Chan.C25_every_value_once",
    "Verif.Chan.C25_real_kept",
    "Verif.Chan.C25_virtual_range",
    "Verif.Chan.C25_virtual_none_lost"
   ],
   "note": "Strictly increasing starts for every list of nodes; ends tile; real channels keep exactly the records; virtual repair stays in range and loses no set of a non-decreasing file."
  },
  {
   "property": "C26",
   "status": "proved",
   "theorems": [
    "Verif.Chan.C26_covers",
    "Verif.Chan.C26_every_value_once",
    "Verif.Chan.C26_user_sets_kept",
    "Verif.Chan.C26_no_sets",
    "Verif.Chan.C26_idempotent",
    "Verif.Chan.C26_reread",
    "Verif.Chan.C26_overlap_violated"
   ],
   "note": "For well-formed (non-overlapping, in range) sets; overlapping sets produce an inverted unnamed set (finding, outside the property's hypothesis)."
  },
  {
   "property": "C27",
   "status": "proved",
   "theorems": [
    "Verif.Chan.C27_partition",
    "Verif.Chan.C27_every_value_once",
    "Verif.Chan.C27_built_partition",
    "Verif.Chan.C27_equal_starts_violated"
   ],
   "note": "Per logical channel; functions with equal starts (outside the hypothesis) end at the maximum (finding)."
  },
  {
   "property": "C28",
   "status": "partial",
   "theorems": [
    "Verif.Geo.C28_footprint_partial",
    "Verif.Geo.C28_virtual",
    "Verif.Geo.C28_unlisted",
    "Verif.Geo.C28_unused",
    "Verif.Geo.C28_virtual_violated",
    "Verif.Geo.C28_high_address_violated",
    "Verif.Geo.C28_nested_violated",
    "Verif.Geo.C28_break_order_violated",
    "Verif.Geo.C28_missing_break_violated"
   ],
   "note": "Smallest block for references that are not nested and list their breaks in ascending order, addresses in 1..512; each missing case is proved to fail."
  },
  {
   "property": "C29",
   "status": "partial",
   "theorems": [
    "Verif.Geo.C29_sorted",
    "Verif.Geo.C29_members_partial",
    "Verif.Geo.C29_no_geometry",
    "Verif.Geo.C29_ends",
    "Verif.Geo.C29_in_bounds",
    "Verif.Geo.C29_cycle_violated",
    "Verif.Geo.C29_overwrite_child_violated"
   ],
   "note": "Ascending, each once, exact membership; channels overwriting their break on a child of the referenced geometry are not listed; circular references never end."
  },
  {
   "property": "C30",
   "status": "proved",
   "theorems": [
    "Verif.Lookup.C30_getByRef",
    "Verif.Lookup.C30_each_kind",
    "Verif.Lookup.C30_size_independent",
    "Verif.Lookup.C30_hash_consistent",
    "Verif.Lookup.C30_equality",
    "Verif.Lookup.C30_attributes_size_independent",
    "Verif.Lookup.C30_attribute",
    "Verif.Lookup.C30_noFeature",
    "Verif.Lookup.C30_unknown_attribute_violated",
    "Verif.Lookup.C30_subunit_of_other_attribute"
   ],
   "note": "For every behaviour of the hash table (hash function, bucket count, order of elements) the indexed and the scanning lookup give the first element with the name up to ASCII case; for attributes over all histories of lookups. The answer for an unknown attribute depends on the history (finding). The indexes of a mode are treated under C41."
  },
  {
   "property": "C31",
   "status": "proved",
   "theorems": [
    "Verif.Lookup.C31_resolveGeometry",
    "Verif.Lookup.C31_channelGeometry",
    "Verif.Lookup.C31_channelGeometry_empty",
    "Verif.Lookup.C31_modeGeometry",
    "Verif.Lookup.C31_agree"
   ],
   "note": "First geometry in document order, indexed or by the two recursive walks. The geometry of a mode is only searched among the top geometries."
  },
  {
   "property": "C32",
   "status": "proved",
   "theorems": [
    "Verif.Check.C32_exact",
    "Verif.Check.C32_accepted",
    "Verif.Check.C32_listed_twice"
   ],
   "note": "For all behaviours of the hash set. The hypothesis that no mandatory attribute is listed twice is necessary (shown) and holds for all node kinds of the code."
  },
  {
   "property": "C33",
   "status": "partial",
   "theorems": [
    "Verif.Check.C33_reported_partial",
    "Verif.Check.C33_exact_partial",
    "Verif.Check.C33_first_overlap_only_violated",
    "Verif.Check.C33_second_without_master_violated",
    "Verif.Check.C33_different_masters_violated"
   ],
   "note": "Every report names two functions that can be active together; the converse holds if the functions use one common master and each overlaps at most one later function. The full statement is violated in three ways."
  },
  {
   "property": "C34",
   "status": "partial",
   "theorems": [
    "Verif.Lookup.C34_duplicates_partial",
    "Verif.Lookup.C34_bar_violated",
    "Verif.Lookup.C34_unresolved_geometry_violated",
    "Verif.Lookup.C34_no_geometry_violated",
    "Verif.Lookup.C34_empty_attribute_violated"
   ],
   "note": "Both algorithms report exactly the repeated pairs if all geometries were found, geometry names have no '|' and attribute names are not empty. Each of the three conditions is necessary: counterexamples in which the answer depends on the number of channels."
  },
  {
   "property": "C35",
   "status": "partial",
   "theorems": [
    "Verif.Mtx.C35_product",
    "Verif.Mtx.C35_point",
    "Verif.Mtx.C35_compose",
    "Verif.Mtx.C35_monoid",
    "Verif.Mtx.C35_in_place",
    "Verif.Mtx.C35_point2",
    "Verif.Mtx.C35_translate",
    "Verif.Mtx.C35_scale",
    "Verif.Mtx.C35_rotate_after",
    "Verif.Mtx.C35_rotate_before",
    "Verif.Mtx.C35_set",
    "Verif.Mtx.C35_rotate_round",
    "Verif.Mtx.C35_scale_center",
    "Verif.Mtx.C35_rotate_angles",
    "Verif.Mtx.C35_setRotation",
    "Verif.Mtx.C35_setRotation_real",
    "Verif.Mtx.C35_setRotation_direction",
    "Verif.Mtx.C35_setRotation_zero_violated",
    "Verif.Mtx.C35_invert_partial",
    "Verif.Mtx.C35_invert_points",
    "Verif.Mtx.C35_invert_rotation",
    "Verif.Mtx.C35_invert_small_violated",
    "Verif.Mtx.C35_invert_singular",
    "Verif.Mtx.C35_inverse_point_iff",
    "Verif.Mtx.C35_inverse_point_violated",
    "Verif.Mtx.C35_inverse_point_invert",
    "Verif.Mtx.C35_isFlipped",
    "Verif.Mtx.C35_isFlipped_partial",
    "Verif.Mtx.C35_isFlipped_violated",
    "Verif.Mtx.C35_flip",
    "Verif.Mtx.C35_equal",
    "Verif.Mtx.C35_isIdentity",
    "Verif.Mtx.C35_equal_not_transitive",
    "Verif.Mtx.C35_convert",
    "Verif.Mtx.C35_setMatrix"
   ],
   "note": "Products, point transforms, translate/scale/rotate proved in full. Inversion holds above fixed thresholds only: non-singular small matrices are not inverted (violated), and InversePointTransform is an inverse exactly for orthonormal matrices."
  },
  {
   "property": "C36",
   "status": "proved",
   "theorems": [
    "Verif.Unicode.C36_utf8",
    "Verif.Unicode.C36_utf8_counted",
    "Verif.Unicode.C36_fromUtf32",
    "Verif.Unicode.C36_toUtf32"
   ],
   "note": "The library's own converters (Windows/macOS branches); the Linux branch delegates to std::codecvt. Embedded NUL is excluded: it terminates the buffers."
  },
  {
   "property": "C37",
   "status": "proved",
   "theorems": [
    "Verif.Unicode.C37_malformed",
    "Verif.Unicode.C37_decode_only_reads_length",
    "Verif.Str.C37_toUtf32"
   ],
   "note": "Memory is modelled as the list of readable bytes; an out-of-range read would be the outcome none."
  },
  {
   "property": "C38",
   "status": "partial",
   "theorems": [
    "Verif.Str.C38_left_chars",
    "Verif.Str.C38_right_chars",
    "Verif.Str.C38_mid_chars",
    "Verif.Str.C38_find",
    "Verif.Str.C38_find_none",
    "Verif.Str.C38_reverseFind",
    "Verif.Str.C38_replace_partial",
    "Verif.Str.C38_replace_empty_violated",
    "Verif.Str.C38_trim",
    "Verif.Str.C38_trim_spec",
    "Verif.Str.C38_slices",
    "Verif.Str.C38_slices_utf16",
    "Verif.Str.C38_left_wellformed",
    "Verif.Str.C38_insert_delete",
    "Verif.Str.C38_delete_insert",
    "Verif.Str.C38_reverse",
    "Verif.Str.C38_endsWith",
    "Verif.Str.replace_single"
   ],
   "note": "Everything holds except that Replace with an empty pattern never terminates (proved)."
  },
  {
   "property": "C39",
   "status": "partial",
   "theorems": [
    "Verif.Str.C39_split_diverges_violated",
    "Verif.Str.C39_split_partial",
    "Verif.Str.C39_split_empty"
   ],
   "note": "The code violates it: Split never returns on a non-empty string that does not end with the separator."
  },
  {
   "property": "C40",
   "status": "partial",
   "theorems": [
    "Verif.Color.C40_red_blue_partial",
    "Verif.Color.C40_all",
    "Verif.Color.C40_green_violated",
    "Verif.Color.C40_green_iff",
    "Verif.Color.C40_eq"
   ],
   "note": "Violated for green: every value 1..255 reads back as 257 times the value."
  },
  {
   "property": "C41",
   "status": "partial",
   "theorems": [
    "Verif.Lookup.C41_channel",
    "Verif.Lookup.C41_function",
    "Verif.Lookup.C41_first_partial",
    "Verif.Lookup.C41_dots_violated",
    "Verif.Lookup.C41_generated_name_clash",
    "Verif.Lookup.C41_index_before_names_violated",
    "Verif.Lookup.C41_missing_attribute_violated"
   ],
   "note": "Proved for modes of every size whose geometries and attributes were all found. Otherwise violated: the index of large modes is built before names are generated, and a missing attribute is dereferenced."
  },
  {
   "property": "C42",
   "status": "partial",
   "theorems": [
    "Verif.Scene.C42_exact",
    "Verif.Scene.C42_partial",
    "Verif.Scene.C42_violated",
    "Verif.Scene.C42_iteration",
    "Verif.Scene.C42_container",
    "Verif.Scene.C42_iteration_violated"
   ],
   "note": "On the level of XML trees: the tree read is the tree written without the groups that have no content, so the round trip holds if no group is empty (violated otherwise, proved). Iteration with first/next visits the objects of a container in the order of creation after every sequence of calls, unless a focus point is created with the name of one that was read (then it never ends, proved). Members other than kind, UUID, name and references are not modelled."
  },
  {
   "property": "C43",
   "status": "partial",
   "theorems": [
    "Verif.Scene.C43_partial",
    "Verif.Scene.C43_violated",
    "Verif.Scene.C43_groups_violated",
    "Verif.Scene.C43_case_violated"
   ],
   "note": "Violated for every scene: the library never writes its classes, no object has a class after reading (proved). If the file lists the classes, all objects except groups and layers have their class again (proved); groups and layers never have one (proved)."
  },
  {
   "property": "C44",
   "status": "partial",
   "theorems": [
    "Verif.Scene.C44_partial",
    "Verif.Scene.C44_written",
    "Verif.Scene.C44_text_violated"
   ],
   "note": "Exact for all files, in terms of the decoded UUIDs, and for all written scenes. Two different malformed texts both decode to the zero UUID and are reported (proved)."
  },
  {
   "property": "C45",
   "status": "partial",
   "theorems": [
    "Verif.Xchg.C45_filter",
    "Verif.Xchg.C45_idempotent",
    "Verif.Xchg.C45_at_partial",
    "Verif.Xchg.C45_at_violated",
    "Verif.Xchg.C45_service_name"
   ],
   "note": "Filtering proved in full; GetLocalServiceAt reads out of bounds at index = count (violated)."
  },
  {
   "property": "C46",
   "status": "partial",
   "theorems": [
    "Verif.Text.C46_signed",
    "Verif.Text.C46_empty_signed",
    "Verif.Text.C46_empty_unsigned",
    "Verif.Text.C46_empty_break",
    "Verif.Text.C46_empty_integerOrNone",
    "Verif.Text.C46_unsigned",
    "Verif.Text.C46_unsigned_violated",
    "Verif.Text.C46_break",
    "Verif.Text.C46_integerOrNone",
    "Verif.Text.C46_ints_partial",
    "Verif.Text.C46_empty_list_violated"
   ],
   "note": "Violated for unsigned values above 2^31-1 (atoi is undefined) and for the empty list in braces."
  },
  {
   "property": "C47",
   "status": "partial",
   "theorems": [
    "Verif.Real.C47_error",
    "Verif.Real.C47_stable",
    "Verif.Real.C47_fixpoint",
    "Verif.Real.C47_exact",
    "Verif.Real.C47_small_violated",
    "Verif.Real.C47_list",
    "Verif.Real.C47_single_list_violated",
    "Verif.Real.C47_point2",
    "Verif.Real.C47_color",
    "Verif.Real.C47_vector",
    "Verif.Real.C47_colors"
   ],
   "note": "Proved; a list of a single number is read with a spurious error report (proved as violation). Exponents/inf/nan in texts are not modelled."
  },
  {
   "property": "C48",
   "status": "partial",
   "theorems": [
    "Verif.Color.C48_gradient",
    "Verif.Color.C48_in_range",
    "Verif.Color.C48_chromaticity",
    "Verif.Color.C48_black",
    "Verif.Color.C48_pure_red",
    "Verif.Color.C48_pure_green",
    "Verif.Color.C48_pure_blue",
    "Verif.Color.C48_roundtrip_violated",
    "Verif.Color.C48_white_violated"
   ],
   "note": "Ranges proved; the round trip RGB -> CIE -> RGB is violated."
  },
  {
   "property": "C49",
   "status": "partial",
   "theorems": [
    "Verif.Xchg.C49_roundtrip_partial",
    "Verif.Xchg.C49_string_bool",
    "Verif.Xchg.C49_string_number_any",
    "Verif.Xchg.C49_empty_file_violated",
    "Verif.Xchg.C49_undefined_violated",
    "Verif.Xchg.C49_type_violated",
    "Verif.Xchg.C49_overflow_violated",
    "Verif.Xchg.C49_missing_key_violated",
    "Verif.Xchg.C49_refused",
    "Verif.Xchg.C49_leave_old_form",
    "Verif.Xchg.C49_string_number"
   ],
   "note": "Proved for every message but the empty file; malformed messages are violated: missing keys and long texts are undefined behaviour, a non-text type throws. JSON text itself (nlohmann) is trusted."
  },
  {
   "property": "C50",
   "status": "partial",
   "theorems": [
    "Verif.Xchg.C50_announce",
    "Verif.Xchg.C50_fields_fit",
    "Verif.Xchg.C50_roundtrip_partial",
    "Verif.Xchg.C50_ends_iff_violated",
    "Verif.Xchg.C50_empty_violated",
    "Verif.Xchg.C50_long_name_violated"
   ],
   "note": "Holds for names up to 243 bytes not containing StationName=; records with a piece without '=' are read for ever (violated)."
  },
  {
   "property": "C51",
   "status": "partial",
   "theorems": [
    "Verif.Path.C51_mvr_inside_partial",
    "Verif.Path.C51_mvr_exact",
    "Verif.Path.C51_mvr_violated",
    "Verif.Path.C51_gdtf_inside_partial",
    "Verif.Path.C51_gdtf_exact",
    "Verif.Path.C51_gdtf_violated",
    "Verif.Path.C51_gdtf_collision_violated",
    "Verif.Path.C51_folder"
   ],
   "note": "Usual names keep their path; names without the parts '.' and '..' stay inside. Violated: '..' leads out of the working folder (MVR and GDTF), in GDTF even './.' does, and GDTF entries of different folders fall together."
  },
  {
   "property": "C52",
   "status": "partial",
   "theorems": [
    "Verif.Node.C52_exact",
    "Verif.Node.C52_accepted_partial",
    "Verif.Node.C52_display_violated"
   ],
   "note": "For all 66 kinds of nodes: exactly the unset mandatory references are reported. Violated by displays, whose own attributes Width, Height and IsCurved are reported as wrong (proved)."
  },
  {
   "property": "C53",
   "status": "proved",
   "theorems": [
    "Verif.Node.C53_read_back",
    "Verif.Node.C53_value",
    "Verif.Node.C53_one_statement"
   ],
   "note": "For all 66 kinds of nodes, over arbitrary converters (those have properties of their own: C09-C19, C46, C47). The kinds are data transcribed from the code; the nested nodes of PhysicalDescriptions are not included. A channel function with both a channel and a function as mode master writes one attribute twice."
  },
  {
   "property": "C54",
   "status": "proved",
   "theorems": [
    "Verif.Scene.C54"
   ],
   "note": "For all scenes whose positions have different UUIDs and whose references point into the scene; on the level of XML trees."
  },
  {
   "property": "C55",
   "status": "partial",
   "theorems": [
    "Verif.Scene.C55_exact",
    "Verif.Scene.C55_partial",
    "Verif.Scene.C55_violated"
   ],
   "note": "Exactly the parents whose node ended before are kept; parents that come later, contain the object, or are groups or layers are lost (proved)."
  },
  {
   "property": "C56",
   "status": "partial",
   "theorems": [
    "Verif.Scene.C56_partial",
    "Verif.Scene.C56_readDefs",
    "Verif.Scene.C56_dangling_violated",
    "Verif.Scene.C56_no_objects"
   ],
   "note": "All symbols are resolved if all references name definitions; a dangling reference followed by another object dereferences a null pointer (proved for every file). The order of iteration of the hash map is fixed in the model."
  },
  {
   "property": "C57",
   "status": "partial",
   "theorems": [
    "Verif.Xml.C57_exact",
    "Verif.Xml.C57_partial",
    "Verif.Xml.C57_depth_violated",
    "Verif.Xml.C57_blank_violated",
    "Verif.Xml.C57_cr_violated",
    "Verif.Xml.C57_bom_violated"
   ],
   "note": "For the tinyxml2 back-end, exactly which document is read from the text written for a tree. The tree is the same if texts and values have no carriage return and no NUL, no text is of white space only, and at most 98 elements with content are nested; the exceptions are proved to be violations."
  },
  {
   "property": "C58",
   "status": "partial",
   "theorems": [
    "Verif.Xml.C58_truncated",
    "Verif.Xml.C58_partial",
    "Verif.Xml.C58_values",
    "Verif.Xml.C58_mismatch",
    "Verif.Xml.C58_comments",
    "Verif.Xml.C58_stray_violated",
    "Verif.Xml.C58_empty_end_violated",
    "Verif.Xml.C58_entity_violated"
   ],
   "note": "For the tinyxml2 back-end. Every proper prefix of every written file is refused; every accepted text is a sequence of properly nested nodes, but anything can follow a stray end tag, '</a/>' is an element and unknown entities leave stale bytes (proved)."
  },
  {
   "property": "C59",
   "status": "partial",
   "theorems": [
    "Verif.Xml.C59_partial",
    "Verif.Xml.C59_tree_partial",
    "Verif.Xml.C59_depth_violated"
   ],
   "note": "For the tinyxml2 back-end, all scenes with up to 46 objects inside of each other and names without carriage return and NUL; with C42 the tree of objects comes back. From 47 nested groups on the file cannot be read (proved)."
  },
  {
   "property": "C60",
   "status": "partial",
   "theorems": [
    "Verif.Api.C60_partial",
    "Verif.Api.C60_values",
    "Verif.Api.C60_files",
    "Verif.Api.C60_bound_violated",
    "Verif.Api.C60_below_partial",
    "Verif.Api.C60_null_violated",
    "Verif.Api.C60_lost_violated"
   ],
   "note": "69 pairs of count and getter, as a table of the checks each makes. Eight getters accept the index that equals the count, one has no check of the pointer and one never delivers (proved)."
  },
  {
   "property": "C61",
   "status": "partial",
   "theorems": [
    "Verif.Api.C61_partial",
    "Verif.Api.C61_accepts",
    "Verif.Api.C61_unset",
    "Verif.Api.C61_names",
    "Verif.Api.C61_offsets",
    "Verif.Api.C61_primaries",
    "Verif.Api.C61_primaries_violated",
    "Verif.Api.C61_number",
    "Verif.Api.C61_connector_violated",
    "Verif.Api.C61_model_violated",
    "Verif.Api.C61_frame_partial",
    "Verif.Api.C61_frame_violated",
    "Verif.Api.C61_gltf_partial",
    "Verif.Api.C61_buffer_violated",
    "Verif.Api.C61_table"
   ],
   "note": "263 fields as a table of members assigned and read. 245 return what was set; cleaned names, DMX offsets, colours of colour spaces and the fixture number exactly as described by theorems; the type of connectors, the model of geometries and two of the file buffers are violations (proved). All pairs of fields of a class but eight are independent, those eight are not (proved)."
  },
  {
   "property": "C62",
   "status": "partial",
   "theorems": [
    "Verif.Api.C62_setters_partial",
    "Verif.Api.C62_setters_violated",
    "Verif.Api.C62_creators_partial",
    "Verif.Api.C62_creators_violated"
   ],
   "note": "7 setters and 9 creators clean the name, 6 setters and 12 creators keep what they get (proved)."
  },
  {
   "property": "C63",
   "status": "partial",
   "theorems": [
    "Verif.Gdtf.C63_partial",
    "Verif.Gdtf.C63_places",
    "Verif.Gdtf.C63_values",
    "Verif.Gdtf.C63_same",
    "Verif.Gdtf.C63_fields_partial",
    "Verif.Gdtf.C63_violated"
   ],
   "note": "All trees over the 76 classes with child nodes as a table of members. Presets are written and never read (proved); everything else comes back at its place. Gap filling of channel sets and the resolution of references are in other models (C20, C28)."
  },
  {
   "property": "C64",
   "status": "proved",
   "theorems": [
    "Verif.Gdtf.C64_unknown",
    "Verif.Gdtf.C64_order"
   ],
   "note": "On the level of XML trees, for all classes, any attributes."
  },
  {
   "property": "C65",
   "status": "partial",
   "theorems": [
    "Verif.Mvr.C65_partial",
    "Verif.Mvr.C65_file_partial",
    "Verif.Mvr.C65_rotation_violated",
    "Verif.Mvr.C65_customId_violated",
    "Verif.Mvr.C65_number_violated",
    "Verif.Mvr.C65_command_violated"
   ],
   "note": "All trees over the 55 classes, as XML trees and as bytes of the file (nodes at most 98 levels deep, texts without carriage return and null character, texts of nodes not only white space). Violated for gobo rotations without a gobo, custom IDs and numbers from 2^31 on, custom commands with separators in the channel function; the partial theorems exclude exactly these."
  },
  {
   "property": "C66",
   "status": "partial",
   "theorems": [
    "Verif.Mdns.C66_answer_partial",
    "Verif.Mdns.C66_question_partial",
    "Verif.Mdns.C66_questions_partial",
    "Verif.Mdns.C66_names_partial",
    "Verif.Mdns.C66_answer_loop_violated",
    "Verif.Mdns.C66_question_loop_violated",
    "Verif.Mdns.C66_outside_violated"
   ],
   "note": "Well-formed answers and questions (except for SRV records) are understood; skipping names ends for all bytes. Violated: a name that refers to itself is read for ever, a well-formed SRV question as well, and a short answer makes the receiver read outside of the buffer."
  },
  {
   "property": "C67",
   "status": "partial",
   "theorems": [
    "Verif.Mdns.C67_asked",
    "Verif.Mdns.C67_answered_partial",
    "Verif.Mdns.C67_found_partial",
    "Verif.Mdns.C67_long_group_violated",
    "Verif.Mdns.C67_long_name_violated",
    "Verif.Mdns.C67_same_computer_violated"
   ],
   "note": "From the bytes of the question to the list of stations, for group names of 1 to 63 characters and names of at most 193 bytes, of stations with different addresses. Violated outside of that: memory error for long groups, exception for long names, wrong identity for two stations on one computer. Delivery by the network is not modelled."
  },
  {
   "property": "C68",
   "status": "partial",
   "theorems": [
    "Verif.Link.C68_links_survive",
    "Verif.Link.C68_main_without_feature_violated",
    "Verif.Link.C68_units_violated",
    "Verif.Link.C68_stale_name_violated",
    "Verif.Link.C68_null_violated"
   ],
   "note": "For all consistent fixtures: unique names (also of sub-physical units over all attributes), links into the fixture, required links present, a feature where there is a main attribute, no stale channel names. Outside of that links are lost or changed without a report (proved). Pointers to channels of other modes and pin patches to geometries that are no wiring objects are outside the model."
  },
  {
   "property": "C69",
   "status": "partial",
   "theorems": [
    "Verif.Link.C69_reported_partial",
    "Verif.Link.C69_attributes_partial",
    "Verif.Link.C69_null_partial",
    "Verif.Link.C69_masters_partial",
    "Verif.Link.C69_substitute",
    "Verif.Link.C69_attribute_violated",
    "Verif.Link.C69_function_violated",
    "Verif.Link.C69_main_violated"
   ],
   "note": "Exact for models, geometries, initial functions, macro channels, personalities, activation groups and features, and for attributes as long as NoFeature is not involved. Missing wheels, emitters, filters, colour spaces, gamuts, profiles and units are never reported, missing attributes not if there is an attribute NoFeature (proved). A mode master is reported exactly if the function names one and has none afterwards; the substitute attribute is NoFeature with the feature Control.Control. Missing: which texts the mode masters and macros must have in terms of names only."
  },
  {
   "property": "C70",
   "status": "partial",
   "theorems": [
    "Verif.Link.C70_read_write_partial",
    "Verif.Link.C70_macro_channel_violated",
    "Verif.Link.C70_macro_function_violated",
    "Verif.Link.C70_personality_violated",
    "Verif.Link.C70_initial_violated",
    "Verif.Link.C70_main_violated"
   ],
   "note": "Reading is safe if all links to attributes lead somewhere; the result can be written if and only if no macro value or personality is left without its target. The violations are the remaining cases. Only the links are modelled here; texts and trees are C63 and C57."
  },
  {
   "property": "C71",
   "status": "partial",
   "theorems": [
    "Verif.Sched.C71_rest_partial",
    "Verif.Sched.C71_return_partial",
    "Verif.Sched.C71_missed_violated",
    "Verif.Sched.C71_lost_violated",
    "Verif.Sched.C71_spurious_violated",
    "Verif.Sched.C71_callback_violated"
   ],
   "note": "For every schedule without spurious wake-ups in which no callback leaves the service: nothing ends the program, no infinite run without new events, and at rest every call has returned except a QueryLocalServices that missed its notification (which exists, and never returns). Spurious wake-ups and callbacks that leave are violations. One application thread; an action is atomic."
  },
  {
   "property": "C72",
   "status": "partial",
   "theorems": [
    "Verif.Sched.C72_spaced_partial",
    "Verif.Sched.C72_alive",
    "Verif.Sched.C72_again_violated",
    "Verif.Sched.C72_flood_violated"
   ],
   "note": "The distance holds for a service joined once; joined twice, searches follow each other without a pause for ever (proved). A search is never forgotten, for every history."
  },
  {
   "property": "C73",
   "status": "partial",
   "theorems": [
    "Verif.Sched.C73_shared_partial",
    "Verif.Sched.C73_callback_violated"
   ],
   "note": "Group, list of stations and announcements: no race for every schedule. The callback races with OnMessage (proved). Several application threads are not modelled."
  },
  {
   "property": "C74",
   "status": "partial",
   "theorems": [
    "Verif.Disk.C74_killed_partial",
    "Verif.Disk.C74_power_partial",
    "Verif.Disk.C74_saved_partial",
    "Verif.Disk.C74_cut_partial",
    "Verif.Disk.C74_atomic_violated",
    "Verif.Disk.C74_durable_violated",
    "Verif.Disk.C74_errors_violated",
    "Verif.Disk.C74_cut_violated"
   ],
   "note": "What holds at every moment: the file holds the old content or a beginning of the new archive; nothing changes before Close; without failures the new archive is there afterwards. All or nothing is violated (the file is overwritten in place), so are durability (synchronised before the buffer is written out) and the report of errors; an archive cut within its last bytes is read outside of the buffer (proved)."
  },
  {
   "property": "C75",
   "status": "partial",
   "theorems": [
    "Verif.Disk.C75_saved_partial",
    "Verif.Disk.C75_unclosed_partial",
    "Verif.Disk.C75_untouched_partial",
    "Verif.Disk.C75_reading_partial",
    "Verif.Disk.C75_reopen_violated",
    "Verif.Disk.C75_empty_violated",
    "Verif.Disk.C75_openWrite_violated",
    "Verif.Disk.C75_missing_violated",
    "Verif.Disk.C75_remove_reading_violated",
    "Verif.Disk.C75_memory_violated"
   ],
   "note": "Holds for files that are not opened, for histories that only read, and for making an archive with a new object. Violated when an object is used again after closing, for archives without files, for OpenWrite, and for RemoveFile on archives opened for reading or from memory (proved)."
  },
  {
   "property": "C76",
   "status": "partial",
   "theorems": [
    "Verif.Sched.C76_connected_partial",
    "Verif.Sched.C76_messages_partial",
    "Verif.Sched.C76_silent_partial",
    "Verif.Sched.C76_hidden_partial"
   ],
   "note": "For every schedule without spurious wake-ups in which no callback leaves the service; one application thread; the TCP sessions behind the server are one thread of messages."
  },
  {
   "property": "C77",
   "status": "partial",
   "theorems": [
    "Verif.Pack.C77_any_reader_partial",
    "Verif.Pack.C77_round_trip_partial",
    "Verif.Pack.C77_complete",
    "Verif.Pack.C77_calls",
    "Verif.Pack.C77_same_name_violated",
    "Verif.Pack.C77_missing_gdtf_violated",
    "Verif.Pack.C77_case_violated",
    "Verif.Pack.C77_vanished_violated",
    "Verif.Pack.C77_close_twice_violated",
    "Verif.Pack.C77_missing_file_violated",
    "Verif.Pack.C77_shared_folder_violated",
    "Verif.Pack.C77_not_empty_violated",
    "Verif.Pack.C77_destroyed_violated",
    "Verif.Pack.C77_read_twice_violated",
    "Verif.Pack.C77_sub_folder_violated"
   ],
   "note": "Holds for usual names without folders, every name once, GDTF names that do not differ only in case, a new writing object and packages within the limits of the archive (C03); the first of several items with one name is kept. Violated otherwise: items are lost without an error, and objects replace, delete or list each other's files. The deflate codec is a parameter assumed lossless; the text of the description is an argument."
  },
  {
   "property": "C78",
   "status": "partial",
   "theorems": [
    "Verif.Pack.C78_read_partial",
    "Verif.Pack.C78_round_trip_partial",
    "Verif.Pack.C78_complete",
    "Verif.Pack.C78_paths",
    "Verif.Pack.C78_calls",
    "Verif.Pack.C78_same_path_violated",
    "Verif.Pack.C78_description_violated",
    "Verif.Pack.C78_open_deletes_violated",
    "Verif.Pack.C78_closed_violated",
    "Verif.Pack.C78_shared_folder_violated",
    "Verif.Pack.C78_not_empty_violated",
    "Verif.Pack.C78_destroyed_violated"
   ],
   "note": "Holds for usual names, no resource named as the description and packages within the limits of the archive (C03); of several resources with one path the first is kept. Violated otherwise: resources and descriptions are lost although every call reports success, opening deletes the old file, and all objects share one working folder."
  },
  {
   "property": "C79",
   "status": "partial",
   "theorems": [
    "Verif.Pack.C79_edit_partial",
    "Verif.Pack.C79_main_meshes",
    "Verif.Pack.C79_buffers_partial",
    "Verif.Pack.C79_image_violated",
    "Verif.Pack.C79_low_violated",
    "Verif.Pack.C79_file_violated",
    "Verif.Pack.C79_add_violated"
   ],
   "note": "Holds when all resources are main meshes and symbols with names that differ not only in case, and for resources given as buffers; C79_edit_partial says exactly what is left otherwise. Violated for images, coarse and fine meshes and resources given as files."
  },
  {
   "property": "C80",
   "status": "partial",
   "theorems": [
    "Verif.Gdtf.C80_values_partial",
    "Verif.Gdtf.C80_links",
    "Verif.Gdtf.C80_has_color",
    "Verif.Gdtf.C80_set_physical",
    "Verif.Gdtf.C80_linked_fixture",
    "Verif.Gdtf.C80_wheel_slot",
    "Verif.Gdtf.C80_name_violated"
   ],
   "note": "For every tree without presets (C63), values in the range of the format (unsigned integers below 2^31, offsets without gaps, one mode master). Violated for fixture names with a slash. Missing: what reading a function or a set changes in its neighbours (C20, C21), the resolution of references (C68), and the texts of the numbers of mode masters and macros, which are converted when the references are resolved."
  },
  {
   "property": "C81",
   "status": "partial",
   "theorems": [
    "Verif.Gdtf.C81_text",
    "Verif.Gdtf.C81_file_partial",
    "Verif.Gdtf.C81_package_partial",
    "Verif.Gdtf.C81_version_partial",
    "Verif.Gdtf.C81_missing",
    "Verif.Gdtf.C81_deep_violated",
    "Verif.Gdtf.C81_truncated_violated",
    "Verif.Gdtf.C81_unparsable_violated",
    "Verif.Gdtf.C81_version_zero_violated",
    "Verif.Gdtf.C81_not_utf8_violated",
    "Verif.Gdtf.C81_not_utf16_violated"
   ],
   "note": "For fixtures as in C80 with texts that XML can keep (no null, no carriage return, no lone surrogate) and at most 49 objects inside of each other (always read; above 98 never; in between it depends on the classes, C81_text is exact). Violated for deeper fixtures, descriptions that are cut off or not XML (success is reported), versions n.0, and texts that are not UTF-8 or UTF-16 (exception)."
  },
  {
   "property": "C82",
   "status": "partial",
   "theorems": [
    "Verif.Xchg.C82_read",
    "Verif.Xchg.C82_only_json",
    "Verif.Xchg.C82_write",
    "Verif.Xchg.C82_message_partial",
    "Verif.Xchg.C82_any_layout",
    "Verif.Xchg.C82_not_json",
    "Verif.Xchg.C82_not_utf8_violated",
    "Verif.Xchg.C82_message_violated"
   ],
   "note": "For messages as in C49 whose texts are UTF-8. Violated for texts that are not UTF-8: sending throws. Numbers that are not integers of 64 bits are outside the model of the reader (the library never writes one)."
  },
  {
   "property": "C83",
   "status": "partial",
   "theorems": [
    "Verif.Xchg.C83_segments",
    "Verif.Xchg.C83_segments_back",
    "Verif.Xchg.C83_whole",
    "Verif.Xchg.C83_broken",
    "Verif.Xchg.C83_magic",
    "Verif.Xchg.C83_send",
    "Verif.Xchg.C83_exchange_partial",
    "Verif.Xchg.C83_answer_magic_violated",
    "Verif.Xchg.C83_no_callback_violated",
    "Verif.Xchg.C83_reset_violated",
    "Verif.Xchg.C83_type_violated",
    "Verif.Xchg.C83_answer_violated",
    "Verif.Xchg.C83_resolve_violated"
   ],
   "note": "Holds for bodies of at most 31457253 bytes (C20), messages as in C82, peers that keep the connection until the answer. Violated: a service without callback, a peer that resets the connection after its message, a type that is not a text and an answer that is not UTF-8 end the program; an answer that is not a packet is taken for a refusal. asio and the operating system are the list of events of a connection."
  },
  {
   "property": "C84",
   "status": "partial",
   "theorems": [
    "Verif.Gdtf.C84_values_partial",
    "Verif.Gdtf.C84_places"
   ],
   "note": "For every tree of objects with values in the range of the format (as in C80) and at most one mode master per channel function. The standard is given by the tables of FormatSpec.lean (nodes, nesting, attributes, notations, words), written independently of the model. Not included: the numbers of mode masters and of macro values (texts in the model), how often a node may occur, whether attributes without a value have to be there."
  },
  {
   "property": "C85",
   "status": "partial",
   "theorems": [
    "Verif.Gdtf.C85_default_partial",
    "Verif.Gdtf.C85_text",
    "Verif.Gdtf.C85_every_attribute",
    "Verif.Gdtf.C85_objects",
    "Verif.Gdtf.C85_document_partial",
    "Verif.Gdtf.C85_suitable",
    "Verif.Gdtf.C85_beam_radius_violated",
    "Verif.Gdtf.C85_limits_violated",
    "Verif.Gdtf.C85_memory_violated"
   ],
   "note": "Holds for every attribute that has a default value, in every object of every description, apart from the radius of a beam (50 instead of 0.05), the limits of a channel function (0 and 1 instead of its physical values) and an empty highlight value (0 instead of None). 31 members of 9 classes have no value behind the constructor: if their attribute is left out, they keep what was in the memory (C85_memory_violated); C85_document_partial: nothing else differs between two readings."
  },
  {
   "property": "C86",
   "status": "partial",
   "theorems": [
    "Verif.Mvr.C86_description_partial",
    "Verif.Mvr.C86_package_partial",
    "Verif.Mvr.C86_version",
    "Verif.Mvr.C86_provider_violated",
    "Verif.Mvr.C86_deep_violated",
    "Verif.Mvr.C86_damaged_violated",
    "Verif.Mvr.C86_second_violated",
    "Verif.Mvr.C86_any_root_violated"
   ],
   "note": "For scenes as in C65 (values in the range of the format) whose texts are UTF-8 without null and carriage return, with at most 98 levels of nodes, and packages as in C77; the classes of a scene and the links between its objects are not included (links: C54). A new object holds exactly the scene. Violated: the program that has written the file is never read; deeper scenes are read as empty ones; a damaged description is reported as success and leaves the object as it was, with the version of the file before; an object that opens a second file holds both scenes; any root node is taken for that of a scene."
  },
  {
   "property": "C87",
   "status": "partial",
   "theorems": [
    "Verif.Mvr.C87_node",
    "Verif.Mvr.C87_description",
    "Verif.Mvr.C87_scene_partial",
    "Verif.Mvr.C87_no_uuid",
    "Verif.Mvr.C87_case_violated"
   ],
   "note": "C87_node and C87_description hold for every pair of documents (files: in UTF-8); C87_scene_partial for scenes as in C86. Violated: a name that differs from a known one only in upper and lower case is unknown in XML, but read as the known one in lists."
  },
  {
   "property": "C88",
   "status": "partial",
   "theorems": [
    "Verif.Mvr.C88_attribute_partial",
    "Verif.Mvr.C88_node_partial",
    "Verif.Mvr.C88_empty",
    "Verif.Mvr.C88_every",
    "Verif.Mvr.C88_alignment_violated",
    "Verif.Mvr.C88_memory_violated"
   ],
   "note": "Holds for every attribute, node and list of the tables of AbsentSpec.lean (C88_every: these are all that are read), except the vectors of an alignment (zero) and the values of a mapping and of a projector, which have no initial value. The text between the tags of a node that is there is not included."
  },
  {
   "property": "C89",
   "status": "partial",
   "theorems": [
    "Verif.Mvr.C89_values_partial",
    "Verif.Mvr.C89_places",
    "Verif.Mvr.C89_scene_partial"
   ],
   "note": "Holds for all trees of objects with values in the range of Build. Missing: numbers above 2147483647 (some of them are written wrongly, see C65_customId_violated), the rotation of a gobo that is not there, empty groups (not written, with everything in them), objects in objects in which the standard has no place for them. The tables of the standard are written from knowledge of it; the repository has no copy."
  },
  {
   "property": "C90",
   "status": "partial",
   "theorems": [
    "Verif.Mvr.C90_saved_partial",
    "Verif.Mvr.C90_object_partial",
    "Verif.Mvr.C90_source_violated",
    "Verif.Mvr.C90_negative_violated",
    "Verif.Mvr.C90_again_violated"
   ],
   "note": "Holds for every document that is Sane (SaveSpec.lean): numbers of at most nine characters without a sign where the member has none, the five values of a mapping, the source of a mapping definition, the scale handling of a projection, no rotation for a gobo without a name. Violated otherwise: a mapping definition without a source makes saving crash, negative sizes cannot be read again, and groups of empty groups vanish one level each time. The classes of a scene are not modelled here (they are read but never written)."
  },
  {
   "property": "C91",
   "status": "partial",
   "theorems": [
    "Verif.Mvr.C91_values_partial",
    "Verif.Mvr.C91_lists",
    "Verif.Mvr.C91_single",
    "Verif.Mvr.C91_all"
   ],
   "note": "Holds for every document, every place of a value and every text in the notation, and for the nodes of every member. Missing: hexadecimal numbers, inf and nan and numbers out of the range of a double (not in the model of atof), integers above 2147483647, channel functions with the separators of the text of a custom command. Of several nodes that collect objects only the first one counts, which is how the standard has them."
  },
  {
   "property": "C92",
   "status": "partial",
   "theorems": [
    "Verif.Gdtf.C92_values_partial",
    "Verif.Gdtf.C92_every_attribute",
    "Verif.Gdtf.C92_object",
    "Verif.Gdtf.C92_lists",
    "Verif.Gdtf.C92_single",
    "Verif.Gdtf.C92_mirror_violated"
   ],
   "note": "Holds for every description, every attribute of the standard and every text in the notation, and for the nodes of every member. Violated for channel values whose number of bytes does not divide that of the channel: they are scaled instead of repeated (C92_mirror_violated). Missing: hexadecimal numbers, inf and nan and numbers out of the range of a double (not in the model of atof), integers above 2147483647, a slash in the name of the fixture type (replaced on reading), and FTPreset nodes, which are never read."
  },
  {
   "property": "C93",
   "status": "partial",
   "theorems": [
    "Verif.Gdtf.C93_values_partial",
    "Verif.Gdtf.C93_places",
    "Verif.Gdtf.C93_links",
    "Verif.Gdtf.C93_wheel_slot",
    "Verif.Gdtf.C93_flags",
    "Verif.Gdtf.C93_sound",
    "Verif.Gdtf.C93_resolved",
    "Verif.Gdtf.C93_gap_violated",
    "Verif.Gdtf.C93_negative_violated",
    "Verif.Gdtf.C93_physical_violated"
   ],
   "note": "Holds for every description that meets the limits of Gdtf.SaveSpec, and every way to resolve references. Violated: addresses with gaps (C93_gap_violated), negative counts (C93_negative_violated), a channel set with one of its two physical values (C93_physical_violated). Missing: which references are found is a parameter (C68, C70), not computed here; a channel function has at most one mode master."
  },
  {
   "property": "C94",
   "status": "partial",
   "theorems": [
    "Verif.Mvr.C94_same_partial",
    "Verif.Mvr.C94_file_partial",
    "Verif.Mvr.C94_read_partial",
    "Verif.Mvr.C94_matrix_violated"
   ],
   "note": "Holds for every scene whose numbers are at most 2^32, without groups that are left out and without matrices that are almost the identity. Violated for those two: C94_matrix_violated, C90_again_violated. Missing: numbers above 2^32, where a double does not have six decimals. For scenes read from foreign files the second text is what is written if writing does not use a null pointer; that it does not is proved for the first saving (C90)."
  },
  {
   "property": "C95",
   "status": "partial",
   "theorems": [
    "Verif.Gdtf.C95_same_partial",
    "Verif.Gdtf.C95_file_partial",
    "Verif.Gdtf.C95_resolved",
    "Verif.Gdtf.C95_read_partial",
    "Verif.Gdtf.C95_duration_violated"
   ],
   "note": "Holds for every description whose numbers are at most 2^32 and whose references are resolved to what they named, without slashes in the name of the fixture type and without durations of wheel slots that are not zero but shown as zero. Violated for the last: C95_duration_violated. Missing: numbers above 2^32, where a double does not have six decimals."
  },
  {
   "property": "C96",
   "status": "partial",
   "theorems": [
    "Verif.Master.C96_true",
    "Verif.Master.C96_first_partial",
    "Verif.Master.C96_free",
    "Verif.Master.C96_fixture",
    "Verif.Master.C96_everywhere",
    "Verif.Master.C96_increasing",
    "Verif.Master.C96_later_violated",
    "Verif.Master.C96_hidden_violated"
   ],
   "note": "No false alarms for any fixture (C96_true), and exact for functions without mode masters (C96_free, C96_increasing). Violated with mode masters: a function with a mode master in front of one without (C96_later_violated), a function that hides a later one (C96_hidden_violated); functions with different mode masters are never reported. Missing: the callback that aborts reading is not modelled."
  },
  {
   "property": "C97",
   "status": "partial",
   "theorems": [
    "Verif.Attr.C97_built_partial",
    "Verif.Attr.C97_target",
    "Verif.Attr.C97_read",
    "Verif.Attr.C97_extended_partial",
    "Verif.Attr.C97_moved_violated",
    "Verif.Attr.C97_again_violated"
   ],
   "note": "Holds for every fixture that is read, and for every history that gives no attribute a target twice. Violated otherwise: an attribute stays in the list of the target it had (C97_moved_violated), and is listed twice if it is given the target it has (C97_again_violated). Missing: the search for the target is a parameter here (C68), the callback that aborts reading is not modelled."
  },
  {
   "property": "C98",
   "status": "partial",
   "theorems": [
    "Verif.Loan.C98_answer_partial",
    "Verif.Loan.C98_history_partial",
    "Verif.Loan.C98_ask_partial",
    "Verif.Loan.C98_transfer_partial",
    "Verif.Loan.C98_request_partial",
    "Verif.Loan.C98_buffer_first",
    "Verif.Loan.C98_send_violated",
    "Verif.Loan.C98_keep_violated",
    "Verif.Loan.C98_echo_violated",
    "Verif.Loan.C98_refusal_violated",
    "Verif.Loan.C98_short_violated",
    "Verif.Loan.C98_missing_violated"
   ],
   "note": "Holds for applications that give a new buffer with every file and no buffer with other answers, and files that are not empty and can be read. Violated otherwise: a file sent with Send_message is released twice (C98_send_violated), a buffer that is given twice or sent back is used after its release (C98_keep_violated, C98_echo_violated), a buffer with a refusal is never released (C98_refusal_violated), a file that cannot be read completely is sent as a complete one (C98_short_violated), and one that is missing as an empty one (C98_missing_violated). Missing: applications with memory of their own beside the buffers; paths of 1024 characters and more, which are cut."
  },
  {
   "property": "C99",
   "status": "partial",
   "theorems": [
    "Verif.Abort.C99_never_partial",
    "Verif.Abort.C99_beginning_partial",
    "Verif.Abort.C99_quick_partial",
    "Verif.Abort.C99_between_partial",
    "Verif.Abort.C99_part_partial",
    "Verif.Abort.C99_last_partial",
    "Verif.Abort.C99_once_violated",
    "Verif.Abort.C99_links_violated",
    "Verif.Abort.C99_told_violated",
    "Verif.Abort.C99_shared_violated",
    "Verif.Abort.C99_remove_violated"
   ],
   "note": "Holds for every file and every function that stays with its wish to stop: a beginning of the file, nothing is read after the wish, and no effect without it. Violated: a wish that is said once leaves holes inside lists of children; links are not looked up after a stop; OpenForRead succeeds in all cases; the function belongs to the process and cannot be taken away. Not modelled: the same function in GDTF files, exceptions thrown by the function, calls of the API from within it (the mutex is held)."
  }
 ]
}