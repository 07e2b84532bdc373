{
 "claims": [
  {
   "property": "C01",
   "status": "proved",
   "theorems": [
    "Hampi.C01_constrained_round_trip"
   ],
   "note": "All i128 bounds and values, any buffer and position, any suffix, extensible or not."
  },
  {
   "property": "C02",
   "status": "partial",
   "theorems": [
    "Hampi.C02_in_bounds_accepted_partial",
    "Hampi.C02_lower_bound_refused_violated"
   ],
   "note": "Full statement is false of the code. Proved for every in-bounds value except the lower bound of a range above 65536 values (span below 2^127); for those C02_lower_bound_refused_violated proves the refusal in general."
  },
  {
   "property": "C03",
   "status": "proved",
   "theorems": [
    "Hampi.C03_out_of_bounds_refused",
    "Hampi.C03_below_lower_bound_refused",
    "Hampi.C03_enumerated_out_of_bounds_refused",
    "Hampi.C03_choice_out_of_bounds_refused"
   ],
   "note": "Integer with both bounds, integer with a lower bound only, enumerated and choice index."
  },
  {
   "property": "C04",
   "status": "partial",
   "theorems": [
    "Hampi.C04_unconstrained_round_trip_partial",
    "Hampi.C04_unconstrained_accepted",
    "Hampi.C04_middle_values_violated"
   ],
   "note": "Full statement is false of the code: values needing 9 to 15 octets encode but decode to Err (C04_middle_values_violated, general). All other i128 values proved."
  },
  {
   "property": "C05",
   "status": "proved",
   "theorems": [
    "Hampi.C05_semi_constrained_round_trip",
    "Hampi.C05_semi_constrained_accepted"
   ],
   "note": "All lower bounds and values; acceptance proved for spans below 2^127."
  },
  {
   "property": "C06",
   "status": "partial",
   "theorems": [
    "Hampi.C06_decoded_in_bounds_partial",
    "Hampi.C06_out_of_bounds_violated",
    "Hampi.C06_in_bounds_iff"
   ],
   "note": "Full statement is false of the code (witness at any position). C06_in_bounds_iff says exactly for which bounds it holds: those that fill their bit field. Proved there."
  },
  {
   "property": "C07",
   "status": "partial",
   "theorems": [
    "Hampi.C07_constrained_layout_partial",
    "Hampi.C07_two_pow_32_violated",
    "Hampi.C07_two_pow_iff"
   ],
   "note": "Proved for all spans but 2^32 and 2^64 values; for these two, C07_two_pow_iff says exactly which values are written as prescribed and which are not. The lower bound of large types is refused (C02)."
  },
  {
   "property": "C08",
   "status": "proved",
   "theorems": [
    "Hampi.C08_unconstrained_layout"
   ],
   "note": "Layout compared with Spec.X691."
  },
  {
   "property": "C09",
   "status": "proved",
   "theorems": [
    "Hampi.C09_length_round_trip"
   ],
   "note": "All bounds, lengths, both normally small settings."
  },
  {
   "property": "C10",
   "status": "proved",
   "theorems": [
    "Hampi.C10_accepted_lengths"
   ],
   "note": "Exact characterisation: accepted iff within bounds and expressible, otherwise Err."
  },
  {
   "property": "C11",
   "status": "proved",
   "theorems": [
    "Hampi.C11_bitstring_round_trip",
    "Hampi.C11_bitstring_accepted",
    "Hampi.C11_bitstring_too_long_refused"
   ],
   "note": "All bounds, any position and suffix; acceptance and refusal characterised (16384 bits and above are refused)."
  },
  {
   "property": "C12",
   "status": "proved",
   "theorems": [
    "Hampi.C12_octetstring_round_trip",
    "Hampi.C12_octetstring_accepted",
    "Hampi.C12_octetstring_too_long_refused"
   ],
   "note": "All bounds, any position and suffix; acceptance and refusal characterised."
  },
  {
   "property": "C13",
   "status": "partial",
   "theorems": [
    "Hampi.C13_short_result",
    "Hampi.C13_short_iff",
    "Hampi.C13_string_round_trip_partial",
    "Hampi.C13_string_accepted",
    "Hampi.C13_short_unaligned_violated"
   ],
   "note": "Full statement is false of the code: a 1 or 2 octet string at a position that is not an octet boundary reads back rotated (witness). Proved for every other string and position; C13_short_result says what every short string is read back as, and C13_short_iff exactly which short strings come back."
  },
  {
   "property": "C14",
   "status": "proved",
   "theorems": [
    "Hampi.C14_text_is_wire_octets",
    "Hampi.C14_valid_text_iff"
   ],
   "note": "Decoded text is exactly the octets on the wire; decoding succeeds exactly when they are valid UTF-8."
  },
  {
   "property": "C15",
   "status": "partial",
   "theorems": [
    "Hampi.C15_bitstring_fragments",
    "Hampi.C15_octetstring_fragments",
    "Hampi.C15_string_fragments_violated"
   ],
   "note": "Any number of 16K..64K fragments and a final part, any bounds that give a general length, against Spec.fragmented, for BIT and OCTET STRING. C15_string_fragments_violated: character strings received in fragments are cut silently after the first."
  },
  {
   "property": "C16",
   "status": "proved",
   "theorems": [
    "Hampi.C16_enumerated_round_trip",
    "Hampi.C16_enumerated_accepted"
   ],
   "note": "All i128 bounds and values."
  },
  {
   "property": "C17",
   "status": "proved",
   "theorems": [
    "Hampi.C17_choice_round_trip",
    "Hampi.C17_choice_accepted"
   ],
   "note": "All i128 bounds and values."
  },
  {
   "property": "C18",
   "status": "proved",
   "theorems": [
    "Hampi.C18_header_round_trip",
    "Hampi.C18_header_layout"
   ],
   "note": "Any number of optional flags."
  },
  {
   "property": "C19",
   "status": "proved",
   "theorems": [
    "Hampi.C19_bool_round_trip",
    "Hampi.C19_bool_writes_one_bit",
    "Hampi.C19_bool_reads_one_bit"
   ],
   "note": "Both directions, any state."
  },
  {
   "property": "C20",
   "status": "proved",
   "theorems": [
    "Hampi.C20_encode_only_appends",
    "Hampi.C20_encode_history_only_appends"
   ],
   "note": "Single calls and arbitrary histories of encoder calls, including failing ones."
  },
  {
   "property": "C21",
   "status": "proved",
   "theorems": [
    "Hampi.C21_decode_frame",
    "Hampi.C21_decode_history_frame"
   ],
   "note": "Single calls and arbitrary histories of decoder calls, including failing ones."
  },
  {
   "property": "C22",
   "status": "proved",
   "theorems": [
    "Hampi.C22_suffix_independent",
    "Hampi.C22_prefix_independent"
   ],
   "note": "Any suffix; any prefix of whole octets."
  },
  {
   "property": "C23",
   "status": "proved",
   "theorems": [
    "Hampi.C23_truncated_rejected"
   ],
   "note": "Every strict prefix of an encoding is rejected with Err or panic, never accepted."
  },
  {
   "property": "C24",
   "status": "partial",
   "theorems": [
    "Hampi.C24_no_decode_panic_partial",
    "Hampi.C24_semi_constrained_violated",
    "Hampi.C24_extension_index_violated",
    "Hampi.C24_i64_bounds_violated",
    "Hampi.C24_partial_octet_violated",
    "Hampi.C24_panics_iff",
    "Hampi.C24_i64_bounds_iff"
   ],
   "note": "Full statement is false of the code. C24_panics_iff says exactly which parameters let octets make a decoder panic (Spec/DecodePanics.lean), over all kinds of decoder with i128 bounds; the other theorems are instances and the case of buffers that end inside an octet."
  },
  {
   "property": "C25",
   "status": "partial",
   "theorems": [
    "Hampi.C25_no_encode_panic_partial",
    "Hampi.C25_normally_small_zero_violated",
    "Hampi.C25_wide_bounds_violated",
    "Hampi.C25_integer_panics_iff",
    "Hampi.C25_length_panics_iff"
   ],
   "note": "Full statement is false of the code (two kinds of panic proved). Proved for lengths and spans inside i128; C25_integer_panics_iff and C25_length_panics_iff say exactly when these encoders panic."
  },
  {
   "property": "C26",
   "status": "partial",
   "theorems": [
    "Hampi.C26_items_in_order_partial",
    "Hampi.C26_violated"
   ],
   "note": "Sequences of any length; limited to items whose single round trip holds (C04 and C13 gaps). C26_violated: an item accepted by the encoder is refused by the matching decode call."
  },
  {
   "property": "C27",
   "status": "proved",
   "theorems": [
    "Hampi.C27_prefix_free"
   ],
   "note": "Two encodings of the same kind where one is a prefix of the other come from the same value."
  },
  {
   "property": "C28",
   "status": "proved",
   "theorems": [
    "Hampi.C28_encoder_alignment",
    "Hampi.C28_decoder_alignment",
    "Hampi.C28_nonzero_padding_rejected"
   ],
   "note": "All buffers and positions."
  },
  {
   "property": "C29",
   "status": "partial",
   "theorems": [
    "Hampi.C29_failed_encode_clean_partial",
    "Hampi.C29_extension_bit_violated",
    "Hampi.C29_long_string_violated"
   ],
   "note": "Full statement is false of the code: extensible types leave the extension bit, long character strings leave padding (both proved in general). Proved for all other calls."
  },
  {
   "property": "C30",
   "status": "proved",
   "theorems": [
    "Hampi.C30_extended_refused"
   ],
   "note": "Every encoder with an extended argument."
  },
  {
   "property": "C31",
   "status": "partial",
   "theorems": [
    "Hampi.C31_integer_extension_partial",
    "Hampi.C31_enumerated_extension",
    "Hampi.C31_choice_extension",
    "Hampi.C31_header_extension",
    "Hampi.C31_bitstring_extension",
    "Hampi.C31_octetstring_extension",
    "Hampi.C31_string_extension",
    "Hampi.C31_integer_extension_violated",
    "Hampi.C31_bitstring_fragments",
    "Hampi.C31_octetstring_fragments",
    "Hampi.C31_string_fragments_violated"
   ],
   "note": "Integers of 1 to 8 and 16 octets, indexes below 2^127, BIT and OCTET STRINGs of any length in fragments or not, character strings below 16K octets, against Spec.X691 words. Violated: integers of 9 to 15 octets are refused, character strings in fragments are cut after the first."
  },
  {
   "property": "C32",
   "status": "proved",
   "theorems": [
    "Hampi.C32_octets_in_octets_out",
    "Hampi.C32_into_bytes",
    "Hampi.C32_transport"
   ],
   "note": "from_slice, get_inner and into_bytes."
  },
  {
   "property": "C33",
   "status": "proved",
   "theorems": [
    "Hampi.C33_key_is_last_set"
   ],
   "note": "Arbitrary histories."
  },
  {
   "property": "C34",
   "status": "proved",
   "theorems": [
    "Hampi.C34_bitstring_size",
    "Hampi.C34_octetstring_size",
    "Hampi.C34_string_size"
   ],
   "note": "Bit, octet and character strings."
  },
  {
   "property": "C35",
   "status": "partial",
   "theorems": [
    "Hampi.C35_length_layout",
    "Hampi.C35_normally_small_layout_partial",
    "Hampi.C35_normally_small_violated"
   ],
   "note": "Ordinary lengths proved in full against Spec.X691; normally small lengths 33..64 violate X.691 (proved for all of them), the rest proved."
  },
  {
   "property": "C36",
   "status": "partial",
   "theorems": [
    "Hampi.C36_round_trip_partial",
    "Hampi.C36_round_trip_open_end_partial",
    "Hampi.C36_permitted_accepted",
    "Hampi.C36_after_open_type_violated",
    "Hampi.C36_round_trip_value_partial",
    "Hampi.C36_framed_values",
    "Hampi.C36_whole_octets_partial"
   ],
   "note": "Proved value by value: any type of the derive universe (arbitrary nesting), any well-formed value in which every open type is followed by something octet-aligned or whose content fills its last octet, any buffer and alignment (C36_round_trip_value_partial); a check of the type implies the check of all its values. The missing part is false of the code: C36_after_open_type_violated, C40_empty_list_violated, and the runtime exceptions of C04 and C13 that Ty.Wf excludes."
  },
  {
   "property": "C37",
   "status": "proved",
   "theorems": [
    "Hampi.C37_presence_bits_written",
    "Hampi.C37_presence_bits_read"
   ],
   "note": "Encoder: all struct types and values. Decoder: all inputs. Also covers the extension bit."
  },
  {
   "property": "C38",
   "status": "proved",
   "theorems": [
    "Hampi.C38_unknown_choice_rejected",
    "Hampi.C38_extended_choice_rejected",
    "Hampi.C38_choice_by_index"
   ],
   "note": "All CHOICE types and inputs; includes that the alternative returned is the first one declared with the index on the wire."
  },
  {
   "property": "C39",
   "status": "partial",
   "theorems": [
    "Hampi.C39_root_index_selects_extension_violated",
    "Hampi.C39_root_index_selects_root_partial",
    "Hampi.C39_root_index_selects_extension_general_violated",
    "Hampi.C39_root_only_iff",
    "Hampi.C39_extension_refused"
   ],
   "note": "Violated for every root whose size does not fill the index field and that has additions enough; C39_root_only_iff says exactly for which CHOICEs it holds. Encoding side proved in full."
  },
  {
   "property": "C40",
   "status": "partial",
   "theorems": [
    "Hampi.C40_sequence_of_round_trip_partial",
    "Hampi.C40_empty_list_violated",
    "Hampi.C40_decoded_length"
   ],
   "note": "Proved for every closed element type and non-empty list; the empty list is shown to fail for every element type (C40_empty_list_violated)."
  },
  {
   "property": "C41",
   "status": "partial",
   "theorems": [
    "Hampi.C41_size_not_enforced_violated",
    "Hampi.C41_never_enforced_violated",
    "Hampi.C41_extensible_not_enforced_violated"
   ],
   "note": "Full statement is false of the code: C41_never_enforced_violated shows it for all size bounds (every list of forbidden length is written and reported Ok), and C41_extensible_not_enforced_violated that an extension marker makes no difference."
  },
  {
   "property": "C42",
   "status": "proved",
   "theorems": [
    "Hampi.C42_open_types_by_key",
    "Hampi.C42_open_type_selects",
    "Hampi.C42_open_type_unknown_key",
    "Hampi.C42_information_element"
   ],
   "note": "All types, inputs and keys: every open type in a decoded value holds the first alternative of the key in force; unknown and missing keys are refused."
  },
  {
   "property": "C43",
   "status": "partial",
   "theorems": [
    "Hampi.C43_length_ignored_violated",
    "Hampi.C43_position_after_open_type_partial",
    "Hampi.C43_every_length_violated",
    "Hampi.C43_open_type_layout"
   ],
   "note": "Violated in general: C43_every_length_violated shows, for every open type at every position, that any announced length gives the same value and the same end; proved for encodings of this library, where the length is right. The layout written is proved in full."
  },
  {
   "property": "C44",
   "status": "proved",
   "theorems": [
    "Hampi.C44_encode_only_appends",
    "Hampi.C44_decode_frame"
   ],
   "note": "All types, values, buffers; Ok and Err outcomes."
  },
  {
   "property": "C45",
   "status": "proved",
   "theorems": [
    "Hampi.C45_suffix_independent",
    "Hampi.C45_truncated_rejected"
   ],
   "note": "All types, inputs, suffixes and cut points."
  },
  {
   "property": "C46",
   "status": "partial",
   "theorems": [
    "Hampi.C46_extension_value_confused_violated",
    "Hampi.C46_extension_flag_dropped_violated",
    "Hampi.C46_every_root_value_violated",
    "Hampi.C46_other_values_partial"
   ],
   "note": "Full statement is false of the code: every root value below 64 is confused with an extension value (C46_every_root_value_violated). Proved (C46_other_values_partial): other extension values are told apart from root values."
  },
  {
   "property": "C47",
   "status": "proved",
   "theorems": [
    "Hampi.C47_integer_value",
    "Hampi.C47_no_truncation_in_bounds"
   ],
   "note": "All widths, bounds and inputs."
  },
  {
   "property": "C48",
   "status": "partial",
   "theorems": [
    "Hampi.C48_empty_content_panics_violated",
    "Hampi.C48_open_type_no_panic_partial"
   ],
   "note": "Full statement is false of the code (every alternative of zero bits panics). Proved for alternatives that write at least one bit."
  },
  {
   "property": "C49",
   "status": "proved",
   "theorems": [
    "Hampi.C49_concatenated_messages",
    "Hampi.C49_messages_accepted"
   ],
   "note": "All lists of messages of types accepted by the check of C36."
  },
  {
   "property": "C50",
   "status": "proved",
   "theorems": [
    "Hampi.Compiler.C50_lossless"
   ],
   "note": "The full relation: the text is the source of the tokens in order, with only blanks between, each source of the form its type demands (longest match), and the token's text what is kept of it."
  },
  {
   "property": "C51",
   "status": "proved",
   "theorems": [
    "Hampi.Compiler.C51_terminates",
    "Hampi.Compiler.C51_progress",
    "Hampi.Compiler.C51_token_count"
   ],
   "note": "Termination, at least one character per turn, at most as many tokens as characters."
  },
  {
   "property": "C52",
   "status": "partial",
   "theorems": [
    "Hampi.Compiler.C52_no_panic_partial",
    "Hampi.Compiler.C52_no_panic_simple_partial",
    "Hampi.Compiler.C52_empty_violated",
    "Hampi.Compiler.C52_unknown_character_violated",
    "Hampi.Compiler.C52_last_character_violated",
    "Hampi.Compiler.C52_panics_iff"
   ],
   "note": "Exactly the texts that make it panic are known (C52_panics_iff): the empty one, and those with a lone - [ ] at the end or a character that starts no token, at a place where a token could start. On all others it returns Ok or Err."
  },
  {
   "property": "C53",
   "status": "partial",
   "theorems": [
    "Hampi.Compiler.C53_words",
    "Hampi.Compiler.C53_reserved_words_partial",
    "Hampi.Compiler.C53_plus_infinity_violated",
    "Hampi.Compiler.C53_longest"
   ],
   "note": "Form of words proved in full. Classification proved for all words except two spellings of the word for positive infinity, where the code has the wrong one."
  },
  {
   "property": "C54",
   "status": "proved",
   "theorems": [
    "Hampi.Compiler.C54_union"
   ],
   "note": "Exact, root and extension part, for every union of values, ranges and included INTEGER types."
  },
  {
   "property": "C55",
   "status": "partial",
   "theorems": [
    "Hampi.Compiler.C55_overlap_violated",
    "Hampi.Compiler.C55_value_range_violated",
    "Hampi.Compiler.C55_empty_start_violated",
    "Hampi.Compiler.C55_sound_partial",
    "Hampi.Compiler.C55_alike_partial",
    "Hampi.Compiler.C55_unlike_violated",
    "Hampi.Compiler.C55_values_partial"
   ],
   "note": "Violated: an operand unlike the one before makes the resolver forget both and all before them (C55_unlike_violated, any operands); overlapping ranges and a value inside a range give the empty set (and a panic). Proved in part: operands written alike are exact for any number of them, two operands are sound, two single values exact."
  },
  {
   "property": "C56",
   "status": "partial",
   "theorems": [
    "Hampi.Compiler.C56_bounds_partial",
    "Hampi.Compiler.C56_lower_bound_partial",
    "Hampi.Compiler.C56_mixture_violated",
    "Hampi.Compiler.C56_serial_violated",
    "Hampi.Compiler.C56_serial_bounds_violated",
    "Hampi.Compiler.C56_upper_bound_iff"
   ],
   "note": "Violated for mixtures of values and ranges (the encoder then refuses permitted values) and for serial constraints. Proved for pure unions; lower bound also for mixtures; for mixtures C56_upper_bound_iff says exactly when the upper bound is right."
  },
  {
   "property": "C57",
   "status": "partial",
   "theorems": [
    "Hampi.Compiler.C57_unsigned_partial",
    "Hampi.Compiler.C57_signed_partial",
    "Hampi.Compiler.C57_signed_violated",
    "Hampi.Compiler.C57_large_violated",
    "Hampi.Compiler.C57_extension_violated",
    "Hampi.Compiler.Props.C57_unconstrained"
   ],
   "note": "Violated for signed ranges with large positive side, above 64 bits, and for extension values. Proved for 0..2^64-1; for signed sets the exact choice is characterised."
  },
  {
   "property": "C58",
   "status": "partial",
   "theorems": [
    "Hampi.Compiler.Props.C58_order",
    "Hampi.Compiler.Props.C58_nothing_else",
    "Hampi.Compiler.Props.C58_definitions_partial",
    "Hampi.Compiler.Props.C58_hidden_violated"
   ],
   "note": "Every order the topological sort can produce, for every iteration order of its hash maps; the references are those of Spec/Mentions. Missing, because false: references in the places that are not looked at."
  },
  {
   "property": "C59",
   "status": "partial",
   "theorems": [
    "Hampi.Compiler.Props.C59_acyclic_partial",
    "Hampi.Compiler.Props.C59_cyclic_lost_violated",
    "Hampi.Compiler.Props.C59_recursive_type_violated"
   ],
   "note": "Proved for definitions neither on nor above a reference cycle; the others are shown to be lost, in general and on a recursive type."
  },
  {
   "property": "C60",
   "status": "proved",
   "theorems": [
    "Hampi.Compiler.Props.C60_choice_keys",
    "Hampi.Compiler.Props.C60_root_alternatives"
   ],
   "note": "For every CHOICE: variants in order, root keys 0..n-1, bounds 0 and n-1, extensible as declared; in the type the CHOICE means, the index of every root alternative is in bounds and selects it."
  },
  {
   "property": "C61",
   "status": "proved",
   "theorems": [
    "Hampi.Compiler.Props.C61_optional_indexes"
   ],
   "note": "For every SEQUENCE: fields in order, optional indexes 0..k-1 in order, announced number k, key fields kept."
  },
  {
   "property": "C62",
   "status": "partial",
   "theorems": [
    "Hampi.Compiler.Props.C62_generated_types",
    "Hampi.Compiler.Props.C62_every_type_has_a_codec",
    "Hampi.Compiler.Props.C62_schema_to_wire_partial"
   ],
   "note": "The generated Rust type stands for exactly the codec the resolved definition means (both directions, any nesting and any aliases); every supported type has exactly one; permitted values are accepted and decoded back. Partial: provisos Closed and Carried, inherited from C36, C04, C13, C40, which are false without them; duplicate Rust names (C80) excluded for the converse."
  },
  {
   "property": "C63",
   "status": "partial",
   "theorems": [
    "Hampi.Compiler.Props.C63_module_order",
    "Hampi.Compiler.Props.C63_mutual_imports_violated"
   ],
   "note": "Every possible order; modules importing from each other are shown to be dropped without an error."
  },
  {
   "property": "C64",
   "status": "partial",
   "theorems": [
    "Hampi.C64_layout_partial",
    "Hampi.C64_semi_constrained_violated",
    "Hampi.C64_short_string_violated",
    "Hampi.C64_utf8_constraint_violated",
    "Hampi.C64_extensible_list_violated"
   ],
   "note": "Ty.Layout (Spec/Wire.lean) is the X.691 layout of a whole value; proved for every type and value outside the excluded cases; each excluded case has a violated theorem."
  },
  {
   "property": "C65",
   "status": "proved",
   "theorems": [
    "Hampi.Compiler.C65_lines"
   ],
   "note": "Proved for every text, including tokens over several lines."
  },
  {
   "property": "C66",
   "status": "partial",
   "theorems": [
    "Hampi.Compiler.C66_columns_partial",
    "Hampi.Compiler.C66_after_split_string_violated",
    "Hampi.Compiler.C66_octets_violated"
   ],
   "note": "Proved for texts without byte order marks and tokens over several lines. Violated after a bit string over two lines."
  },
  {
   "property": "C67",
   "status": "partial",
   "theorems": [
    "Hampi.Compiler.C67_numbers_partial",
    "Hampi.Compiler.C67_lone_hyphen_violated",
    "Hampi.Compiler.C67_not_ascii_violated"
   ],
   "note": "Proved up to lone hyphens and non-ASCII numeric characters, both shown to be violations."
  },
  {
   "property": "C68",
   "status": "partial",
   "theorems": [
    "Hampi.Compiler.C68_union_accepted_partial",
    "Hampi.Compiler.C68_min_max_violated",
    "Hampi.Compiler.C68_parentheses_violated",
    "Hampi.Compiler.C68_inclusion_violated"
   ],
   "note": "Violated for MIN/MAX, parentheses, named types. Proved for unions of values, ranges and INTEGER types."
  },
  {
   "property": "C69",
   "status": "partial",
   "theorems": [
    "Hampi.Compiler.C69_octets_partial",
    "Hampi.Compiler.C69_bits_partial",
    "Hampi.Compiler.C69_characters_partial",
    "Hampi.Compiler.C69_outer_marker_violated",
    "Hampi.Compiler.C69_intersection_violated",
    "Hampi.Compiler.C69_union_violated",
    "Hampi.Compiler.C69_sequence_of_partial"
   ],
   "note": "Violated for a marker outside SIZE, intersections, serial constraints, unions of SIZE. Proved for the single constraint (SIZE (..)) on octet, bit and character strings and on SEQUENCE OF."
  },
  {
   "property": "C70",
   "status": "partial",
   "theorems": [
    "Hampi.Compiler.Props.C70_same_codec_violated",
    "Hampi.C70_fixed_size_violated",
    "Hampi.C70_ranap_plmn_violated",
    "Hampi.Compiler.Props.C70_reference_constraint_violated"
   ],
   "note": "Violated in general: the constraint makes no difference, and the type is sent by the codec of the type referred to. On the wire: no value of a fixed size on a reference to OCTET STRING is sent as X.691 prescribes, for example no PLMN identity of RANAP."
  },
  {
   "property": "C71",
   "status": "partial",
   "theorems": [
    "Hampi.Compiler.Props.C71_size_bound_violated",
    "Hampi.Compiler.Props.C71_value_reference_violated",
    "Hampi.Compiler.Props.C71_order_partial",
    "Hampi.Compiler.Props.C71_unimported_violated",
    "Hampi.Compiler.Props.C71_same_word_violated",
    "Hampi.Compiler.Props.C71_object_key_violated"
   ],
   "note": "C71_order_partial: a proper schema is accepted under every order, and each type has the same codec. Five violations: the same schema is resolved under one iteration order and refused, panics or means something else under another."
  },
  {
   "property": "C72",
   "status": "partial",
   "theorems": [
    "Hampi.Compiler.Props.C72_same_name_violated",
    "Hampi.Compiler.Props.C72_endless_recursion_violated",
    "Hampi.Compiler.Props.C72_separate_partial"
   ],
   "note": "C72_separate_partial: modules added to a proper schema change no codec of it, if all names differ. Two violations for definitions of the same name: a type changes its meaning; endless recursion."
  },
  {
   "property": "C73",
   "status": "partial",
   "theorems": [
    "Hampi.Compiler.Props.C73_nothing_dangles_partial",
    "Hampi.Compiler.Props.C73_not_a_type_violated"
   ],
   "note": "Proved when no name is a type in one module and something else in another; shown to fail otherwise."
  },
  {
   "property": "C74",
   "status": "partial",
   "theorems": [
    "Hampi.Compiler.Props.C74_add_module_violated",
    "Hampi.Compiler.Props.C74_add_module_effect"
   ],
   "note": "The effect is proved; the returned flag is shown to be the opposite of what is documented."
  },
  {
   "property": "C75",
   "status": "partial",
   "theorems": [
    "Hampi.Compiler.Props.C75_sequence_partial",
    "Hampi.Compiler.Props.C75_choice",
    "Hampi.Compiler.Props.C75_default_violated",
    "Hampi.Compiler.Props.C75_addition_groups_violated"
   ],
   "note": "CHOICE in full; SEQUENCE without DEFAULT and addition groups, both shown to be violated in general."
  },
  {
   "property": "C76",
   "status": "partial",
   "theorems": [
    "Hampi.Compiler.Props.C76_unknown_type_refused_partial",
    "Hampi.Compiler.Props.C76_unknown_type_in_choice_refused",
    "Hampi.Compiler.Props.C76_unknown_type_in_sequence_violated",
    "Hampi.Compiler.Props.C76_never_accepted_partial",
    "Hampi.Compiler.Props.C76_module_partial",
    "Hampi.Compiler.Props.C76_schema_partial",
    "Hampi.Compiler.Props.C76_beside_class_fields_violated"
   ],
   "note": "C76_never_accepted_partial, C76_module_partial, C76_schema_partial: a definition with an unknown type at any depth of CHOICE, SEQUENCE and SEQUENCE OF is never accepted and never among the results of any schema. Direct references are refused with an error. Violated: a panic in a SEQUENCE; unnoticed beside class fields and in addition groups."
  },
  {
   "property": "C77",
   "status": "partial",
   "theorems": [
    "Hampi.Compiler.Props.C77_class_components_kept_partial",
    "Hampi.Compiler.Props.C77_empty_set_violated",
    "Hampi.Compiler.Props.C77_other_set_violated",
    "Hampi.Compiler.Props.C77_ordinary_component_lost_violated",
    "Hampi.Compiler.Props.C77_optional_lost_violated"
   ],
   "note": "Violated in general: other components and OPTIONAL are lost, all are lost if the set is empty, the set of later components is not looked at. Proved when all components come from the class and the set has objects: each is kept, in order."
  },
  {
   "property": "C78",
   "status": "partial",
   "theorems": [
    "Hampi.Compiler.Props.C78_table_of_a_set",
    "Hampi.Compiler.Props.C78_alternatives_of_the_objects",
    "Hampi.Compiler.Props.C78_inline_type_violated",
    "Hampi.Compiler.Props.C78_open_type_alternatives_partial",
    "Hampi.Compiler.Props.C78_keys_once",
    "Hampi.Compiler.Props.C78_literal_key_violated"
   ],
   "note": "The table of a resolved set holds exactly the keys of its objects; the alternatives are exactly the objects with a key and a named type. Objects keyed by a literal number, and types that are written out, are shown not to get there."
  },
  {
   "property": "C79",
   "status": "partial",
   "theorems": [
    "Hampi.Compiler.Props.C79_no_cycles_partial",
    "Hampi.Compiler.Props.C79_cycle_violated"
   ],
   "note": "Proved when no name is defined in two modules; a counterexample otherwise."
  },
  {
   "property": "C80",
   "status": "partial",
   "theorems": [
    "Hampi.Compiler.Props.C80_nested_name_violated",
    "Hampi.Compiler.Props.C80_definitions_partial",
    "Hampi.Compiler.Props.C80_all_names_partial",
    "Hampi.Compiler.Props.C80_unnamed_types_partial",
    "Hampi.Compiler.Props.C80_unnamed_and_defined_violated"
   ],
   "note": "Proved exactly when the names are distinct: C80_all_names_partial (an equivalence, in terms of the definitions and the paths inside them, except for schema names of the form of numbered ones). Violated by nested types whose path spells the name of a definition."
  },
  {
   "property": "C81",
   "status": "partial",
   "theorems": [
    "Hampi.Compiler.Props.C81_keyword_violated",
    "Hampi.Compiler.Props.C81_same_field_violated",
    "Hampi.Compiler.Props.C81_self_violated",
    "Hampi.Compiler.Props.C81_fields_differ_partial"
   ],
   "note": "Proved: fields differ if the component names become different Rust names. Violated by Rust keywords and by names that differ only in how words are set off."
  },
  {
   "property": "C82",
   "status": "partial",
   "theorems": [
    "Hampi.Compiler.Props.C82_constants_partial",
    "Hampi.Compiler.Props.C82_many_values_violated",
    "Hampi.Compiler.Props.C82_explicit_numbers_violated"
   ],
   "note": "First 256 values of an enumeration without explicit numbers proved; the 257th has the constant of the first; explicit numbers panic."
  },
  {
   "property": "C83",
   "status": "partial",
   "theorems": [
    "Hampi.Compiler.Props.C83_addition_keys_violated",
    "Hampi.Compiler.Props.C83_root_keys_partial"
   ],
   "note": "Every extensible CHOICE with an addition is a counterexample; C83_root_keys_partial: without additions keys differ."
  },
  {
   "property": "C84",
   "status": "partial",
   "theorems": [
    "Hampi.Compiler.Props.C84_enumeration_partial"
   ],
   "note": "Proved for enumerations without explicit numbers; with them the generator panics (C82)."
  },
  {
   "property": "C85",
   "status": "proved",
   "theorems": [
    "Hampi.Compiler.Props.C85_written_is_read",
    "Hampi.Compiler.Props.C85_unambiguous",
    "Hampi.Compiler.Props.C85_result_is_stable"
   ],
   "note": "The notation is Spec/Notation and Spec/NotationDefs, relations between results and tokens after X.680, X.681 and X.683; what they leave out of the standards is listed under C88-C92 and in DESIGN.md."
  },
  {
   "property": "C86",
   "status": "partial",
   "theorems": [
    "Hampi.Compiler.Props.C86_termination_violated",
    "Hampi.Compiler.Props.C86_termination_partial",
    "Hampi.Compiler.Props.C86_hangs_only_where_stuck_partial"
   ],
   "note": "Violated: the parser hangs on legal SEQUENCE, CHOICE, SET and parameterized notation. Proved in part: it ends on every module in the supported notation, and on any file it hangs only if there is a position where one of five loops takes no token for ever."
  },
  {
   "property": "C87",
   "status": "partial",
   "theorems": [
    "Hampi.Compiler.Props.C87_no_panic_violated",
    "Hampi.Compiler.Props.C87_no_panic_partial"
   ],
   "note": "Violated: any module cut short after OCTET, CHARACTER or `<`. Partial: the parser panics on nothing else: when it does, the last token that is not a comment is one of these three."
  },
  {
   "property": "C88",
   "status": "partial",
   "theorems": [
    "Hampi.Compiler.Props.C88_addition_in_root_violated",
    "Hampi.Compiler.Props.C88_sequence_partial"
   ],
   "note": "Violated for every component after `...` outside of a group. Partial: groups and components after a second `...`."
  },
  {
   "property": "C89",
   "status": "partial",
   "theorems": [
    "Hampi.Compiler.Props.C89_addition_order_violated",
    "Hampi.Compiler.Props.C89_second_marker_violated",
    "Hampi.Compiler.Props.C89_choice_partial"
   ],
   "note": "Violated for an addition before a group, and a second marker. Partial: additions outside of groups last."
  },
  {
   "property": "C90",
   "status": "partial",
   "theorems": [
    "Hampi.Compiler.Props.C90_redefinition_violated",
    "Hampi.Compiler.Props.C90_definitions_partial"
   ],
   "note": "Violated for every module that defines a name twice. Partial: distinct names."
  },
  {
   "property": "C91",
   "status": "partial",
   "theorems": [
    "Hampi.Compiler.Props.C91_octet_violated",
    "Hampi.Compiler.Props.C91_malformed_violated",
    "Hampi.Compiler.Props.C91_structure_partial"
   ],
   "note": "Violated: five families of malformed texts that are accepted, and OCTET in the syntax of a class. Partial: the structure of modules and definitions."
  },
  {
   "property": "C92",
   "status": "partial",
   "theorems": [
    "Hampi.Compiler.Props.C92_oid_names_violated",
    "Hampi.Compiler.Props.C92_large_arc_violated",
    "Hampi.Compiler.Props.C92_refused_violated",
    "Hampi.Compiler.Props.C92_accepted_partial"
   ],
   "note": "Violated: ten families of legal modules that are refused. Partial: the supported notation."
  },
  {
   "property": "C93",
   "status": "partial",
   "theorems": [
    "Hampi.Compiler.Props.C93_instance_partial",
    "Hampi.Compiler.Props.C93_count",
    "Hampi.Compiler.Props.C93_parameters_violated"
   ],
   "note": "Positive for all bodies whose tokens, after the simultaneous substitution of X.683, are supported notation, when no actual parameter is named like a later parameter. Violated in general by sequential substitution and by renamed components."
  },
  {
   "property": "C94",
   "status": "partial",
   "theorems": [
    "Hampi.Compiler.C94_comment_after_word_violated",
    "Hampi.Compiler.C94_accepted_partial",
    "Hampi.Compiler.C94_accepted_iff",
    "Hampi.Compiler.C94_unique_partial"
   ],
   "note": "Converse of C50. Missing, because false: acceptance of a text whose last character is a one-character token [, ], - or @; C94_accepted_iff shows that exactly these are refused (C52 shows the panics). Uniqueness of the cut is proved for every text, accepted or not. C94_comment_after_word_violated: the tokens of the specification may not be a word with a comment right after it, which ASN.1 allows; such texts are refused."
  },
  {
   "property": "C95",
   "status": "proved",
   "theorems": [
    "Hampi.Compiler.Props.C95_schema_compiles",
    "Hampi.Compiler.Props.C95_one_meaning"
   ],
   "note": "C95_schema_compiles: success for every hash order, meaning of every type and value; C95_one_meaning: the specification gives a type one meaning. The subset is `ProperSchema` (Spec/Plain.lean): it includes objects, object sets, open types and parameterized types. What is outside it has its own properties. A schema with all of these, from its text, is in Props/ObjectExample.lean."
  },
  {
   "property": "C96",
   "status": "partial",
   "theorems": [
    "Hampi.Compiler.Props.C96_wire_partial",
    "Hampi.Compiler.Props.C96_empty_list_violated",
    "Hampi.Compiler.Props.C96_short_string_violated"
   ],
   "note": "For every type of a proper schema: permitted values are encoded, as X.691 says when `Regular`, and decoded when `Carried`. Missing, because false: the values these two exclude; C96_empty_list_violated (an empty list is sent and refused) and C96_short_string_violated (two bits less than X.691 says) show it for a type of a proper schema."
  },
  {
   "property": "C97",
   "status": "proved",
   "theorems": [
    "Hampi.Compiler.Props.C97_text_to_rust"
   ],
   "note": "Composition of C94, C85, C95: from characters to generated items. Proper schemas only (Spec/Plain.lean), the text ends in END, and rustfmt is left out. Props/ObjectExample.lean applies it to four files with a class, objects, an open type and a parameterized type."
  },
  {
   "property": "C98",
   "status": "partial",
   "theorems": [
    "Hampi.Compiler.Props.C98_file_order_partial",
    "Hampi.Compiler.Props.C98_replaced_violated"
   ],
   "note": "Proved for modules with different names. Of two files with modules of the same names the earlier is ignored silently (C98_replaced_violated)."
  },
  {
   "property": "C99",
   "status": "partial",
   "theorems": [
    "Hampi.Compiler.Props.C99_all_files_read",
    "Hampi.Compiler.Props.C99_first_error",
    "Hampi.Compiler.Props.C99_binary_violated"
   ],
   "note": "Proved, except that a file that is not UTF-8 makes the program panic instead of returning an error (C99_binary_violated)."
  },
  {
   "property": "C100",
   "status": "partial",
   "theorems": [
    "Hampi.Compiler.Props.C100_macro_reads_attributes",
    "Hampi.Compiler.Props.C100_integer_types",
    "Hampi.Compiler.Props.C100_text_to_codec",
    "Hampi.Compiler.Props.C100_optional_key_violated"
   ],
   "note": "Proved for all files the generator writes with bounds in i128 and no type called Option, in both directions; composed with C97 for texts of proper schemas. Violated for an optional component that selects an open type."
  },
  {
   "property": "C101",
   "status": "partial",
   "theorems": [
    "Hampi.Compiler.Props.C101_unknown_refused_partial",
    "Hampi.Compiler.Props.C101_fields_refused_partial",
    "Hampi.Compiler.Props.C101_variants_refused_partial",
    "Hampi.Compiler.Props.C101_doc_comment_refused",
    "Hampi.Compiler.Props.C101_repeated_violated",
    "Hampi.Compiler.Props.C101_irrelevant_violated",
    "Hampi.Compiler.Props.C101_index_violated"
   ],
   "note": "Proved: what is not known is refused, for items, fields and variants; doc comments are refused. Violated: repeated entries, entries without meaning for the type, optional_idx out of range."
  },
  {
   "property": "C102",
   "status": "partial",
   "theorems": [
    "Hampi.Compiler.Props.C102_names_fit_partial",
    "Hampi.Compiler.Props.C102_used_name_violated",
    "Hampi.Compiler.Props.C102_data_violated"
   ],
   "note": "Proved for schemas whose names (paths included) become different Rust names that are not used otherwise; violated by types called like a name of the prelude and by optional components called data."
  },
  {
   "property": "C103",
   "status": "partial",
   "theorems": [
    "Hampi.Compiler.Props.C103_objects_read_partial",
    "Hampi.Compiler.Props.C103_same_name_violated"
   ],
   "note": "Proved when classes of the same name have the same fields, for modules outside of import cycles. Violated otherwise: classes are known by name alone, and an object is read with the class of another module (C103_same_name_violated)."
  },
  {
   "property": "C104",
   "status": "partial",
   "theorems": [
    "Hampi.Compiler.Props.C104_object_partial",
    "Hampi.Compiler.Props.C104_set_partial",
    "Hampi.Compiler.Props.C104_tokens_partial",
    "Hampi.Compiler.Props.C104_no_syntax_violated",
    "Hampi.Compiler.Props.C104_word_violated",
    "Hampi.Compiler.Props.C104_wrong_object_violated",
    "Hampi.Compiler.Props.C104_bit_string_violated",
    "Hampi.Compiler.Props.C104_identified_by_violated"
   ],
   "note": "Proved for classes in which no two fields have the same words (`ClearSyntax`), words before what they set, no word of the syntax inside a setting. Missing, because false: classes without syntax, types that are words of the syntax, words after the setting, bit strings, refusal of incomplete objects."
  },
  {
   "property": "C105",
   "status": "partial",
   "theorems": [
    "Hampi.C105_panics_iff",
    "Hampi.C105_index_iff",
    "Hampi.C105_no_panic_partial",
    "Hampi.C105_extension_violated",
    "Hampi.C105_empty_list_violated",
    "Hampi.C105_exact_bounds_partial",
    "Hampi.C105_short_partial"
   ],
   "note": "Proved for every type, of any nesting, whose attributes are sane (C105_exact_bounds_partial, with the exact bounds of C24), and for all extensible CHOICE and ENUMERATED types too as long as a message has at most 18 octets (C105_short_partial). Violated with 19 octets by extensible CHOICE and ENUMERATED, by semi-constrained INTEGER, and by lists whose elements occupy no bits (one octet). C105_panics_iff says exactly which octets make a decoder panic, for every type whose bounds keep clear of C24; C105_index_iff the same where lists have elements that occupy bits: only an index of an extension in 17 octets or more, where an extensible ENUMERATED or CHOICE is expected."
  },
  {
   "property": "C106",
   "status": "partial",
   "theorems": [
    "Hampi.C106_decoded_size_partial",
    "Hampi.C106_amplification_violated",
    "Hampi.C106_ngap_partial",
    "Hampi.C106_s1ap_partial",
    "Hampi.C106_ranap_partial",
    "Hampi.C106_messages_violated"
   ],
   "note": "Proved for every type in which list elements occupy at least one bit, with the number of nodes of the type as the factor; and for the messages of NGAP, S1AP and RANAP, all of which contain lists of entries without components, with constants: 7 + 70 n values that take memory and 7 + 32830 n values in all for n octets of NGAP (62 and 32814, 62 and 32830 for the others). Violated by nested fixed-size lists of empty elements (n^d elements from no bits) and, as to time, by PRIVATE MESSAGEs of seven octets that decode to 65542 values."
  },
  {
   "property": "C107",
   "status": "partial",
   "theorems": [
    "Hampi.C107_canonical_partial",
    "Hampi.C107_message_partial",
    "Hampi.C107_one_message_partial",
    "Hampi.C107_extension_bit_violated",
    "Hampi.C107_long_length_violated",
    "Hampi.C107_leading_zeros_violated",
    "Hampi.C107_oversized_list_violated"
   ],
   "note": "Proved for every type without an encoding that leaves a choice to the sender (Ty.Canonical in Spec/Canonical.lean), at any position, for values whose lists have a permitted size. Violated by the extension bit of every extensible SEQUENCE, two-octet lengths below 128, leading zero octets, oversized lists; the length of open types is C43_length_ignored_violated."
  },
  {
   "property": "C108",
   "status": "partial",
   "theorems": [
    "Hampi.C108_root_partial",
    "Hampi.C108_next_component_violated"
   ],
   "note": "Proved: the root components are read right whatever additions follow. Violated: the additions are not skipped, so a BOOLEAN after an extensible SEQUENCE with additions is always read as false."
  },
  {
   "property": "C109",
   "status": "partial",
   "theorems": [
    "Hampi.C109_key_of_record_partial",
    "Hampi.C109_round_trip_partial",
    "Hampi.C109_nested_key_violated"
   ],
   "note": "Holds for every type in which nothing between the key component and the open type sets another key; without this it is false: C109_nested_key_violated."
  },
  {
   "property": "C110",
   "status": "partial",
   "theorems": [
    "Hampi.C110_ngap_partial",
    "Hampi.C110_s1ap_partial",
    "Hampi.C110_ranap_partial",
    "Hampi.C110_ngap_violated",
    "Hampi.C110_s1ap_violated",
    "Hampi.C110_ranap_violated"
   ],
   "note": "The types are transcribed mechanically from examples/tests by tools/transcribe.py. Proved for all permitted values (Ty.Wf, which excludes empty lists, C40) of all but 21, 11 and 39 messages, and of the others if Ty.track accepts the value; for each protocol a message that is lost is exhibited. The shipped test vector of NGAP is decoded and re-encoded in the model."
  },
  {
   "property": "C111",
   "status": "partial",
   "theorems": [
    "Hampi.C111_panics_iff",
    "Hampi.C111_violated",
    "Hampi.C111_empty_message_violated",
    "Hampi.ShortMessages.C111_short_partial",
    "Hampi.ShortMessages.C111_more_empty_messages_violated"
   ],
   "note": "Violated: nineteen octets make each of the three panic, and seven octets of a valid NGAP or RANAP message do. C111_short_partial shows that this is all there is up to 18 octets: S1AP never panics, NGAP only on OVERLOAD STOP, RANAP only on the four messages of the two violations. C111_panics_iff says for messages of any length exactly which ones bring down the receivers."
  },
  {
   "property": "C112",
   "status": "proved",
   "theorems": [
    "Hampi.C112_encode",
    "Hampi.C112_decode",
    "Hampi.C112_library_decoders",
    "Hampi.C112_library_encoders",
    "Hampi.C112_round_trip",
    "Hampi.C112_no_panic"
   ],
   "note": "Full, on the release model of Verif/Derive/Release.lean: every function with an operation that can overflow is transcribed a second time with wrapping arithmetic."
  },
  {
   "property": "C113",
   "status": "partial",
   "theorems": [
    "Hampi.C113_semi_constrained",
    "Hampi.C113_encode_partial",
    "Hampi.C113_decode_partial",
    "Hampi.C113_semi_constrained_violated",
    "Hampi.C113_below_bound_violated",
    "Hampi.C113_empty_list_violated",
    "Hampi.C113_empty_list_read_violated",
    "Hampi.C113_hostile_octets",
    "Hampi.C113_empty_open_type"
   ],
   "note": "Violated as stated; with values of Ty.Encodable and types of Ty.Sane the two builds are equal. Panics that are not overflows stay in release builds (C113_hostile_octets)."
  },
  {
   "property": "C114",
   "status": "partial",
   "theorems": [
    "Hampi.C114_no_panic_partial",
    "Hampi.C114_empty_extensible_violated",
    "Hampi.C114_empty_list_in_open_type_violated",
    "Hampi.C114_ngap_violated",
    "Hampi.C114_panics_iff"
   ],
   "note": "Partial: Ty.Encodable excludes empty lists of an extensible size, open types without content, and bounds 2^127 apart, each of which is shown to panic (the last in C25). C114_panics_iff says exactly which values make the encoder panic, for every type."
  },
  {
   "property": "C115",
   "status": "partial",
   "theorems": [
    "Hampi.C115_set_bit",
    "Hampi.C115_swap_bits",
    "Hampi.C115_swap_bits_panics",
    "Hampi.C115_swap_bits_twice",
    "Hampi.C115_seek_back",
    "Hampi.C115_reserve_violated",
    "Hampi.C115_seek_beyond_violated",
    "Hampi.C115_patched_field"
   ],
   "note": "set_bit, swap_bits and seek inside the buffer proved in full; reserve and seek beyond the end are violations."
  },
  {
   "property": "C116",
   "status": "proved",
   "theorems": [
    "Hampi.Compiler.Props.C116_no_deadlock",
    "Hampi.Compiler.Props.C116_formatting_returns"
   ],
   "note": "Any program, pipes of any capacity: a bound on the length of every schedule, and no reachable state in which nobody can move before the call returns."
  },
  {
   "property": "C117",
   "status": "partial",
   "theorems": [
    "Hampi.Compiler.Props.C117_result_partial",
    "Hampi.Compiler.Props.C117_not_text_violated",
    "Hampi.Compiler.Props.C117_write_error_violated",
    "Hampi.Compiler.Props.C117_unformatted_violated"
   ],
   "note": "Proved for formatters that print UTF-8. Violated by all others: an exit code is ignored, the code comes back unformatted or, depending on the schedule, the words \"write error in rustfmt\" are printed as the generated code."
  },
  {
   "property": "C118",
   "status": "partial",
   "theorems": [
    "Hampi.Compiler.Props.C118_first_partial",
    "Hampi.Compiler.Props.C118_repeated_violated"
   ],
   "note": "Violated by every history with two calls of generate (count of definitions proved for all histories). Proved: the first call gives the file of C97."
  },
  {
   "property": "C119",
   "status": "partial",
   "theorems": [
    "Hampi.Compiler.Props.C119_stale_violated",
    "Hampi.Compiler.Props.C119_kept_partial"
   ],
   "note": "Violated in general: types of a module that was replaced stay. Proved for every history in which no type is taken away: the types generated are those of the modules held."
  },
  {
   "property": "C120",
   "status": "proved",
   "theorems": [
    "Hampi.C120_no_shared_encoding",
    "Hampi.C120_no_shared_message",
    "Hampi.C120_no_shared_stream",
    "Hampi.C120_too_long_shares"
   ],
   "note": "proved for every derivable type: no result is a prefix of another (C120_no_shared_encoding), messages as octets (C120_no_shared_message), streams (C120_no_shared_stream). The restriction to sizes is needed: C120_too_long_shares gives two lists, one too long, with the same encoding."
  },
  {
   "property": "C121",
   "status": "proved",
   "theorems": [
    "Hampi.C121_any_buffer",
    "Hampi.C121_outcome",
    "Hampi.C121_encoded_iff"
   ],
   "note": "C121_any_buffer holds for every type and value without any proviso. C121_outcome and C121_encoded_iff give the outcome exactly (Ty.outcome in Spec/Outcome.lean; for an open type it refers to the number of bits its content takes in a new buffer)."
  },
  {
   "property": "C122",
   "status": "partial",
   "theorems": [
    "Hampi.C122_newer_reads_partial",
    "Hampi.Compiler.Props.C122_generated_partial",
    "Hampi.Compiler.Props.C122_enumerated",
    "Hampi.C122_sequence_addition_violated",
    "Hampi.Compiler.Props.C122_first_object_violated",
    "Hampi.Compiler.Props.C122_schema_partial"
   ],
   "note": "C122_newer_reads_partial is about types as the macro sees them (Ty.Newer, Verif/Spec/Newer.lean): the newer type decodes every buffer that the older one decodes, to an image under an injection and up to the same place, and encodes the image as the older type encodes the value. C122_generated_partial is the same for Rust files generated from two resolved schemas related by GrownSchema. C122_schema_partial is the same from the parsed modules on, for proper schemas (Spec/Plain) related by NewerSchema (Spec/NewerSchema): both compile, and the generated codecs of types of the same name are so related. C122_enumerated: resolving an ENUMERATED with other values after the marker gives types related by Grown. C122_sequence_addition_violated: with a BOOLEAN appended to a SEQUENCE (what C88_addition_in_root_violated makes of a component after the marker), every message of the older version that ends where that component would begin is refused. C122_first_object_violated: when an empty object set gets its first object, the newer version refuses messages of the older one; C122_schema_partial excludes this by StillEmpty. Partial because of the two violations, and because schemas are those that ProperSchema describes."
  },
  {
   "property": "C123",
   "status": "proved",
   "theorems": [
    "Hampi.Compiler.Props.C123_accepted",
    "Hampi.Compiler.Props.C123_ends"
   ],
   "note": "The converse of C85, for all texts that are accepted instead of all legal ones. The liberties are listed in Spec/Accepted."
  },
  {
   "property": "C124",
   "status": "partial",
   "theorems": [
    "Hampi.C124_no_panic",
    "Hampi.C124_ngap",
    "Hampi.C124_s1ap_partial",
    "Hampi.C124_s1ap_never",
    "Hampi.C124_ranap_partial",
    "Hampi.C124_ranap_never",
    "Hampi.C124_s1ap_violated",
    "Hampi.C124_ranap_violated"
   ],
   "note": "NGAP: proved for all protocol data units. S1AP and RANAP: proved for all that do not hold one of two elements each (C124_s1ap_partial, C124_ranap_partial); a message that holds one is never encoded (C124_s1ap_never, C124_ranap_never), and the encoder panics on some (C124_s1ap_violated, C124_ranap_violated). C124_no_panic is the statement for any type."
  },
  {
   "property": "C125",
   "status": "partial",
   "theorems": [
    "Hampi.C125_decode_partial",
    "Hampi.C125_message_partial",
    "Hampi.C125_ngap_partial",
    "Hampi.C125_s1ap_partial",
    "Hampi.C125_ranap_partial",
    "Hampi.C125_two_pow_32_violated",
    "Hampi.C125_short_string_violated",
    "Hampi.C125_padding_violated",
    "Hampi.C125_ngap_violated",
    "Hampi.C125_blank_violated"
   ],
   "note": "Partial because false in general: C125_two_pow_32_violated, C125_short_string_violated, C125_padding_violated, C125_blank_violated, C125_ngap_violated (RAN-UE-NGAP-ID 256). Proved against Ty.Layout, which does not mention the encoder. NGAP: all legible values of 76 of 97 messages, S1AP 85 of 98, RANAP 44 of 85, and the values of the others in which nothing is left unread. Values with extension additions are not described by Ty.Layout."
  },
  {
   "property": "C126",
   "status": "partial",
   "theorems": [
    "Hampi.Extract.C126_passages",
    "Hampi.Extract.C126_compiles_partial",
    "Hampi.Extract.C126_hyphens_violated",
    "Hampi.Extract.C126_start_violated",
    "Hampi.Extract.C126_stop_violated"
   ],
   "note": "C126_passages for all documents and command lines with at least three arguments; C126_compiles_partial: the heading is only comments when the command line has no two hyphens in a row and no line break. Violated: a file name with two hyphens makes every extracted file unreadable for the compiler; a marker followed by a blank is missed, so that a passage is left out or prose is taken for ASN.1. The library docx, which turns a file into paragraphs, is not modelled."
  },
  {
   "property": "C127",
   "status": "partial",
   "theorems": [
    "Hampi.Compiler.Props.C127_self_application_violated",
    "Hampi.Compiler.Props.C127_ends_partial",
    "Hampi.Compiler.Props.C127_without_parameters_partial"
   ],
   "note": "C127_ends_partial: for every list of modules without two definitions of one name whose readings (expansions, objects, object sets: C66, C74 and C97 speak about these) end and which has no endless chain of instances, some depth of calls suffices and any greater one does too, whatever order the sort picks. C127_without_parameters_partial: no chain can exist when no definition has parameters. C127_self_application_violated: a text of one line on which the whole program ends for no depth. The depth of the stack of the machine is not modelled; additions of a SEQUENCE are not resolved by the code and so are left out of the chains."
  },
  {
   "property": "C128",
   "status": "partial",
   "theorems": [
    "Hampi.Compiler.Props.C128_codecs_partial",
    "Hampi.Compiler.Props.C128_names_violated"
   ],
   "note": "C128_codecs_partial: for a schema and one that extends it (module by module, Spec/Grow.lean), both with a meaning (ProperSchema), every type definition of the first stands for one and the same codec in both generated files, for all depths of calls from some point on and all orders of hash tables; with distinct Rust names the codec is unique in each. C128_names_violated: INTEGER_2 is an i64 in the file of one schema and a u8 from 0 to 7 in the file of the schema with one more definition. An object set counts as a definition, so adding an object to an existing set is not an extension in this sense (C122 speaks about that)."
  },
  {
   "property": "C129",
   "status": "partial",
   "theorems": [
    "Hampi.C129_relay_partial",
    "Hampi.C129_framed_partial",
    "Hampi.C129_ngap_partial",
    "Hampi.C129_s1ap_partial",
    "Hampi.C129_ranap_partial",
    "Hampi.C129_s1ap_violated",
    "Hampi.C129_text_violated"
   ],
   "note": "C129_relay_partial: for types with the attributes the compiler writes (Ty.Usual), what was decoded from any octets is well formed unless a list has a size its type does not permit or a text has one or two octets (Ty.Relayable); so if it encodes, the octets decode to the same value, provided no padding of an open type is misread (Ty.track). C129_framed_partial: types where padding is never misread. C129_ngap_partial, C129_s1ap_partial, C129_ranap_partial: the protocol data units, but for the exceptions of C110. C129_s1ap_violated: seven PLMNs become one. C129_text_violated: \"A\" becomes \"P\"."
  },
  {
   "property": "C130",
   "status": "partial",
   "theorems": [
    "Hampi.C130_longest_partial",
    "Hampi.C130_permitted",
    "Hampi.C130_ngap",
    "Hampi.C130_s1ap",
    "Hampi.C130_ranap",
    "Hampi.C130_large_refused",
    "Hampi.C130_lists_violated"
   ],
   "note": "C130_longest_partial: Ty.longest (Spec/Longest.lean) bounds the bits any value takes from any position, if no list outside open types has more elements than permitted; C130_permitted: the octets of well-formed values. C130_ngap, C130_s1ap, C130_ranap: no hypothesis on the value. C130_large_refused: more than 16383 octets inside an open type are an error. C130_lists_violated: four flags where two are permitted."
  },
  {
   "property": "C131",
   "status": "partial",
   "theorems": [
    "Hampi.C131_sent_partial",
    "Hampi.C131_ngap_sent_partial",
    "Hampi.C131_s1ap_sent_partial",
    "Hampi.C131_ranap_sent_partial",
    "Hampi.C131_received_partial",
    "Hampi.C131_ngap_received_violated",
    "Hampi.C131_lists_violated",
    "Hampi.C131_alphabet_violated",
    "Hampi.C131_characters_violated",
    "Hampi.C131_upper_bound_violated"
   ],
   "note": "Partial because the full statement is false. Sending (C131_sent_partial, for every type whose upper bounds have lower bounds, in particular the three protocols): the sizes of lists and the alphabets of text are hypotheses, because the encoders do not check them (C131_lists_violated, C131_alphabet_violated, C131_characters_violated, C131_upper_bound_violated). Receiving (C131_received_partial): types whose bounds fill their bit fields; C131_ngap_received_violated shows a real message for which it fails."
  },
  {
   "property": "C132",
   "status": "proved",
   "theorems": [
    "Hampi.Compiler.Props.C132_codecs"
   ],
   "note": "For proper schemas (the subset of C95). A named part, and a value used as a new bound, must be defined in the same module; the size of a SEQUENCE OF is given by numerals. Renaming a defined type follows with C128: first add the new name, then drop the old one. Rewriting inside addition groups of SEQUENCE and of fields of classes is not covered."
  },
  {
   "property": "C133",
   "status": "proved",
   "theorems": [
    "Hampi.Compiler.Props.C133_positions",
    "Hampi.Compiler.Props.C133_layout"
   ],
   "note": "The words are given by Spec.Shape, as for C50 and C94. Both texts end with a blank character. Messages of errors, which name positions, are not modelled. Strings over several lines and texts that are not made of words are left out of C133_layout."
  },
  {
   "property": "C134",
   "status": "partial",
   "theorems": [
    "Hampi.Compiler.Props.C134_parsed_partial",
    "Hampi.Compiler.Props.C134_program_partial",
    "Hampi.Compiler.Props.C134_violated"
   ],
   "note": "Missing because false: modules that end with a class without a syntax, and names defined twice. The notation is that of Spec/Notation.lean and Spec/NotationDefs.lean."
  },
  {
   "property": "C135",
   "status": "partial",
   "theorems": [
    "Hampi.Compiler.Props.C135_files_partial",
    "Hampi.Compiler.Props.C135_joined_text",
    "Hampi.Compiler.Props.C135_joined_partial",
    "Hampi.Compiler.Props.C135_same_name_violated",
    "Hampi.Compiler.Props.C135_class_violated"
   ],
   "note": "C135_files_partial for all files in the supported notation (Spells), modules of different names; C135_joined_text: one text after the other spells the modules of both. Violated: of two modules of one name the last counts in two files and the first in one (C135_same_name_violated, in general); a module that ends with a class without syntax is read only if another follows in the same file (C135_class_violated)."
  },
  {
   "property": "C136",
   "status": "partial",
   "theorems": [
    "Hampi.Compiler.Props.C136_understood_partial"
   ],
   "note": "C136_understood_partial composes the whole chain: texts (tokenizer, parser: C97), the resolver under any order of hash tables, the generator, the derive macro (C100), rewriting (C132) and the wire (C96). For proper schemas whose bounds fit i128 and whose names rustc accepts (NamesFit). Missing, because false: the values that Carried excludes (C04, C13, C40), and types in which something that is not padded follows an open type (C36)."
  },
  {
   "property": "C137",
   "status": "partial",
   "theorems": [
    "Hampi.C137_accepted",
    "Hampi.C137_work_partial",
    "Hampi.C137_s1ap_partial",
    "Hampi.C137_ngap_partial",
    "Hampi.C137_ranap_partial",
    "Hampi.C137_panic_violated",
    "Hampi.C137_empty_message_violated"
   ],
   "note": "Ty.work (Spec/Work.lean) counts the calls of decoding functions up to the end or the first error; C137_accepted ties it to the value returned. C137_work_partial: at most the nodes of the type times one more than the bits received, for every type whose list elements occupy a bit. C137_s1ap_partial, C137_ngap_partial, C137_ranap_partial: linear bounds for the protocols (all have lists of elements without bits), for NGAP and RANAP unless the decoder panics. Missing because false: C137_panic_violated (a panic on at most 18 octets comes after 2^64 calls) and C137_empty_message_violated (OVERLOAD STOP and two RANAP messages). The time inside one call of a run-time function is not counted."
  },
  {
   "property": "C138",
   "status": "partial",
   "theorems": [
    "Hampi.Compiler.C138_refused_iff",
    "Hampi.Compiler.C138_line",
    "Hampi.Compiler.C138_place_partial",
    "Hampi.Compiler.C138_column_violated"
   ],
   "note": "C138_refused_iff is an equivalence on all texts; C138_line holds for all of them. Columns are proved when no token before the place goes over several lines, and shown to be wrong after one that does (C138_column_violated)."
  },
  {
   "property": "C139",
   "status": "partial",
   "theorems": [
    "Hampi.Compiler.Props.C139_inside_partial",
    "Hampi.Compiler.Props.C139_cut_partial",
    "Hampi.Compiler.Props.C139_cut_violated",
    "Hampi.Compiler.Props.C139_anywhere_partial",
    "Hampi.Compiler.Props.C139_legal_partial",
    "Hampi.Compiler.Props.C139_word_violated"
   ],
   "note": "Proved for accepted texts in which END stands only at the ends of modules; violated for a malformed text with unbalanced brackets inside of brackets (C139_cut_violated). The cut may be anywhere but after the letters END in the middle of a word, where the claim is false (C139_word_violated)."
  },
  {
   "property": "C140",
   "status": "proved",
   "theorems": [
    "Hampi.Compiler.C140_below",
    "Hampi.Compiler.C140_lines"
   ],
   "note": "C140_below: the first text does not end with a newline and one is put between; C140_lines: it ends with one. Both give the outcome for the whole in terms of the outcome for the second text alone, errors included."
  },
  {
   "property": "C141",
   "status": "partial",
   "theorems": [
    "Hampi.Compiler.Props.C141_resolving_partial",
    "Hampi.Compiler.Props.C141_generating_partial",
    "Hampi.Compiler.Props.C141_program_partial",
    "Hampi.Compiler.Props.C141_panics_violated"
   ],
   "note": "Violated on eight short files (numbered ENUMERATED, CHOICE { ... }, a named bit above 255, INTEGER (INTEGER), and others). Partial: the program panics only on a file that is not UTF-8, where the tokenizer panics (C52), on a file that ends with OCTET, CHARACTER or `<`, or for one of the reasons listed in Spec/Trips.lean. Some of these reasons depend on what has been resolved before, and some need not bring about a panic."
  },
  {
   "property": "C142",
   "status": "proved",
   "theorems": [
    "Hampi.Compiler.Props.C142_deeper",
    "Hampi.Compiler.Props.C142_no_other"
   ],
   "note": "Both directions, for the whole program. It also says that the bound on nested calls in the model is only that."
  },
  {
   "property": "C143",
   "status": "partial",
   "theorems": [
    "Hampi.Compiler.Props.C143_ends_partial",
    "Hampi.Compiler.Props.C143_types_and_values_partial",
    "Hampi.Compiler.Props.C143_violated"
   ],
   "note": "Violated: the file of C127. Partial: the program goes on without end only if the parser is stuck in one of five loops (C86), a name is defined in two modules (C72), or parameterized types or objects lead on without end (C127); and it ends on every schema of types and values in the supported notation."
  },
  {
   "property": "C144",
   "status": "proved",
   "theorems": [
    "Hampi.Compiler.Props.C144_emits",
    "Hampi.Compiler.Props.C144_panics",
    "Hampi.Compiler.Props.C144_refused",
    "Hampi.Compiler.Props.C144_one"
   ],
   "note": "Exact in both directions, for the panics as well. The item is taken as the crate syn shows it to the macro; of a type only the first segment of its path and the arguments of that are kept, which is all the macro looks at."
  },
  {
   "property": "C145",
   "status": "proved",
   "theorems": [
    "Hampi.Compiler.Props.C145_identifiers",
    "Hampi.Compiler.Props.C145_names"
   ],
   "note": "Given that the crate heck makes identifiers of names (Spelling.Sane). Discharges what the model of the generator leaves out: the panics of Ident::new and capitalize_first. That the identifiers are not words of Rust is another matter: C81, C102."
  }
 ]
}