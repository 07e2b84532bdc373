import Verif.Props.Accepted
import Verif.Props.Align
import Verif.Props.Below
import Verif.Props.Bounds
import Verif.Props.Canonical
import Verif.Props.Cause
import Verif.Props.Classes
import Verif.Props.Constraints
import Verif.Props.CutOff
import Verif.Props.CutText
import Verif.Props.Derived
import Verif.Props.Emits
import Verif.Props.EncodePanics
import Verif.Props.Ends
import Verif.Props.Extract
import Verif.Props.Fragments
import Verif.Props.Frame
import Verif.Props.Generate
import Verif.Props.Grow
import Verif.Props.Headers
import Verif.Props.Hostile
import Verif.Props.Idents
import Verif.Props.Integers
import Verif.Props.Interoperate
import Verif.Props.Layout
import Verif.Props.Legible
import Verif.Props.Lengths
import Verif.Props.Longest
import Verif.Props.Macro
import Verif.Props.Main
import Verif.Props.MessageSize
import Verif.Props.Messages
import Verif.Props.Mixture
import Verif.Props.Names
import Verif.Props.Newer
import Verif.Props.NewerExample
import Verif.Props.NewerSchema
import Verif.Props.Obeys
import Verif.Props.ObjectExample
import Verif.Props.ObjectSets
import Verif.Props.Objects
import Verif.Props.OpenLength
import Verif.Props.Order
import Verif.Props.Outcome
import Verif.Props.Padding
import Verif.Props.Panics
import Verif.Props.PanicsExact
import Verif.Props.Params
import Verif.Props.Parser
import Verif.Props.ParserLimits
import Verif.Props.ParserMore
import Verif.Props.Patch
import Verif.Props.Persist
import Verif.Props.Pipeline
import Verif.Props.PipelineLimits
import Verif.Props.Place
import Verif.Props.Refactor
import Verif.Props.ReferenceConstraint
import Verif.Props.References
import Verif.Props.Reformat
import Verif.Props.Relay
import Verif.Props.Release
import Verif.Props.Reorder
import Verif.Props.Resolve
import Verif.Props.Rustfmt
import Verif.Props.Sender
import Verif.Props.Separate
import Verif.Props.Session
import Verif.Props.Short
import Verif.Props.ShortMessages
import Verif.Props.ShortStrings
import Verif.Props.Sizes
import Verif.Props.Spread
import Verif.Props.Streams
import Verif.Props.Strings
import Verif.Props.Tokenizer
import Verif.Props.TokenizerBack
import Verif.Props.Trips
import Verif.Props.Unambiguous
import Verif.Props.Unknown
import Verif.Props.Versions
import Verif.Props.Wire
import Verif.Props.Work
/-!
# Axioms used by every property theorem

The build prints, for each theorem, the axioms it depends on: at most `propext`,
`Classical.choice` and `Quot.sound`.
-/
#print axioms Hampi.C01_constrained_round_trip
#print axioms Hampi.C02_in_bounds_accepted_partial
#print axioms Hampi.C02_lower_bound_refused_violated
#print axioms Hampi.C03_out_of_bounds_refused
#print axioms Hampi.C03_below_lower_bound_refused
#print axioms Hampi.C03_enumerated_out_of_bounds_refused
#print axioms Hampi.C03_choice_out_of_bounds_refused
#print axioms Hampi.C04_unconstrained_round_trip_partial
#print axioms Hampi.C04_unconstrained_accepted
#print axioms Hampi.C04_middle_values_violated
#print axioms Hampi.C05_semi_constrained_round_trip
#print axioms Hampi.C05_semi_constrained_accepted
#print axioms Hampi.C06_decoded_in_bounds_partial
#print axioms Hampi.C06_out_of_bounds_violated
#print axioms Hampi.C06_in_bounds_iff
#print axioms Hampi.C07_constrained_layout_partial
#print axioms Hampi.C07_two_pow_32_violated
#print axioms Hampi.C07_two_pow_iff
#print axioms Hampi.C08_unconstrained_layout
#print axioms Hampi.C09_length_round_trip
#print axioms Hampi.C10_accepted_lengths
#print axioms Hampi.C11_bitstring_round_trip
#print axioms Hampi.C11_bitstring_accepted
#print axioms Hampi.C11_bitstring_too_long_refused
#print axioms Hampi.C12_octetstring_round_trip
#print axioms Hampi.C12_octetstring_accepted
#print axioms Hampi.C12_octetstring_too_long_refused
#print axioms Hampi.C13_short_result
#print axioms Hampi.C13_short_iff
#print axioms Hampi.C13_string_round_trip_partial
#print axioms Hampi.C13_string_accepted
#print axioms Hampi.C13_short_unaligned_violated
#print axioms Hampi.C14_text_is_wire_octets
#print axioms Hampi.C14_valid_text_iff
#print axioms Hampi.C15_bitstring_fragments
#print axioms Hampi.C15_octetstring_fragments
#print axioms Hampi.C15_string_fragments_violated
#print axioms Hampi.C16_enumerated_round_trip
#print axioms Hampi.C16_enumerated_accepted
#print axioms Hampi.C17_choice_round_trip
#print axioms Hampi.C17_choice_accepted
#print axioms Hampi.C18_header_round_trip
#print axioms Hampi.C18_header_layout
#print axioms Hampi.C19_bool_round_trip
#print axioms Hampi.C19_bool_writes_one_bit
#print axioms Hampi.C19_bool_reads_one_bit
#print axioms Hampi.C20_encode_only_appends
#print axioms Hampi.C20_encode_history_only_appends
#print axioms Hampi.C21_decode_frame
#print axioms Hampi.C21_decode_history_frame
#print axioms Hampi.C22_suffix_independent
#print axioms Hampi.C22_prefix_independent
#print axioms Hampi.C23_truncated_rejected
#print axioms Hampi.C24_no_decode_panic_partial
#print axioms Hampi.C24_semi_constrained_violated
#print axioms Hampi.C24_extension_index_violated
#print axioms Hampi.C24_i64_bounds_violated
#print axioms Hampi.C24_partial_octet_violated
#print axioms Hampi.C24_panics_iff
#print axioms Hampi.C24_i64_bounds_iff
#print axioms Hampi.C25_no_encode_panic_partial
#print axioms Hampi.C25_normally_small_zero_violated
#print axioms Hampi.C25_wide_bounds_violated
#print axioms Hampi.C25_integer_panics_iff
#print axioms Hampi.C25_length_panics_iff
#print axioms Hampi.C26_items_in_order_partial
#print axioms Hampi.C26_violated
#print axioms Hampi.C27_prefix_free
#print axioms Hampi.C28_encoder_alignment
#print axioms Hampi.C28_decoder_alignment
#print axioms Hampi.C28_nonzero_padding_rejected
#print axioms Hampi.C29_failed_encode_clean_partial
#print axioms Hampi.C29_extension_bit_violated
#print axioms Hampi.C29_long_string_violated
#print axioms Hampi.C30_extended_refused
#print axioms Hampi.C31_integer_extension_partial
#print axioms Hampi.C31_enumerated_extension
#print axioms Hampi.C31_choice_extension
#print axioms Hampi.C31_header_extension
#print axioms Hampi.C31_bitstring_extension
#print axioms Hampi.C31_octetstring_extension
#print axioms Hampi.C31_string_extension
#print axioms Hampi.C31_integer_extension_violated
#print axioms Hampi.C31_bitstring_fragments
#print axioms Hampi.C31_octetstring_fragments
#print axioms Hampi.C31_string_fragments_violated
#print axioms Hampi.C32_octets_in_octets_out
#print axioms Hampi.C32_into_bytes
#print axioms Hampi.C32_transport
#print axioms Hampi.C33_key_is_last_set
#print axioms Hampi.C34_bitstring_size
#print axioms Hampi.C34_octetstring_size
#print axioms Hampi.C34_string_size
#print axioms Hampi.C35_length_layout
#print axioms Hampi.C35_normally_small_layout_partial
#print axioms Hampi.C35_normally_small_violated
#print axioms Hampi.C36_round_trip_partial
#print axioms Hampi.C36_round_trip_open_end_partial
#print axioms Hampi.C36_permitted_accepted
#print axioms Hampi.C36_after_open_type_violated
#print axioms Hampi.C36_round_trip_value_partial
#print axioms Hampi.C36_framed_values
#print axioms Hampi.C36_whole_octets_partial
#print axioms Hampi.C37_presence_bits_written
#print axioms Hampi.C37_presence_bits_read
#print axioms Hampi.C38_unknown_choice_rejected
#print axioms Hampi.C38_extended_choice_rejected
#print axioms Hampi.C38_choice_by_index
#print axioms Hampi.C39_root_index_selects_extension_violated
#print axioms Hampi.C39_root_index_selects_root_partial
#print axioms Hampi.C39_root_index_selects_extension_general_violated
#print axioms Hampi.C39_root_only_iff
#print axioms Hampi.C39_extension_refused
#print axioms Hampi.C40_sequence_of_round_trip_partial
#print axioms Hampi.C40_empty_list_violated
#print axioms Hampi.C40_decoded_length
#print axioms Hampi.C41_size_not_enforced_violated
#print axioms Hampi.C41_never_enforced_violated
#print axioms Hampi.C41_extensible_not_enforced_violated
#print axioms Hampi.C42_open_types_by_key
#print axioms Hampi.C42_open_type_selects
#print axioms Hampi.C42_open_type_unknown_key
#print axioms Hampi.C42_information_element
#print axioms Hampi.C43_length_ignored_violated
#print axioms Hampi.C43_position_after_open_type_partial
#print axioms Hampi.C43_every_length_violated
#print axioms Hampi.C43_open_type_layout
#print axioms Hampi.C44_encode_only_appends
#print axioms Hampi.C44_decode_frame
#print axioms Hampi.C45_suffix_independent
#print axioms Hampi.C45_truncated_rejected
#print axioms Hampi.C46_extension_value_confused_violated
#print axioms Hampi.C46_extension_flag_dropped_violated
#print axioms Hampi.C46_every_root_value_violated
#print axioms Hampi.C46_other_values_partial
#print axioms Hampi.C47_integer_value
#print axioms Hampi.C47_no_truncation_in_bounds
#print axioms Hampi.C48_empty_content_panics_violated
#print axioms Hampi.C48_open_type_no_panic_partial
#print axioms Hampi.C49_concatenated_messages
#print axioms Hampi.C49_messages_accepted
#print axioms Hampi.Compiler.C50_lossless
#print axioms Hampi.Compiler.C51_terminates
#print axioms Hampi.Compiler.C51_progress
#print axioms Hampi.Compiler.C51_token_count
#print axioms Hampi.Compiler.C52_no_panic_partial
#print axioms Hampi.Compiler.C52_no_panic_simple_partial
#print axioms Hampi.Compiler.C52_empty_violated
#print axioms Hampi.Compiler.C52_unknown_character_violated
#print axioms Hampi.Compiler.C52_last_character_violated
#print axioms Hampi.Compiler.C52_panics_iff
#print axioms Hampi.Compiler.C53_words
#print axioms Hampi.Compiler.C53_reserved_words_partial
#print axioms Hampi.Compiler.C53_plus_infinity_violated
#print axioms Hampi.Compiler.C53_longest
#print axioms Hampi.Compiler.C54_union
#print axioms Hampi.Compiler.C55_overlap_violated
#print axioms Hampi.Compiler.C55_value_range_violated
#print axioms Hampi.Compiler.C55_empty_start_violated
#print axioms Hampi.Compiler.C55_sound_partial
#print axioms Hampi.Compiler.C55_alike_partial
#print axioms Hampi.Compiler.C55_unlike_violated
#print axioms Hampi.Compiler.C55_values_partial
#print axioms Hampi.Compiler.C56_bounds_partial
#print axioms Hampi.Compiler.C56_lower_bound_partial
#print axioms Hampi.Compiler.C56_mixture_violated
#print axioms Hampi.Compiler.C56_serial_violated
#print axioms Hampi.Compiler.C56_serial_bounds_violated
#print axioms Hampi.Compiler.C56_upper_bound_iff
#print axioms Hampi.Compiler.C57_unsigned_partial
#print axioms Hampi.Compiler.C57_signed_partial
#print axioms Hampi.Compiler.C57_signed_violated
#print axioms Hampi.Compiler.C57_large_violated
#print axioms Hampi.Compiler.C57_extension_violated
#print axioms Hampi.Compiler.Props.C57_unconstrained
#print axioms Hampi.Compiler.Props.C58_order
#print axioms Hampi.Compiler.Props.C58_nothing_else
#print axioms Hampi.Compiler.Props.C58_definitions_partial
#print axioms Hampi.Compiler.Props.C58_hidden_violated
#print axioms Hampi.Compiler.Props.C59_acyclic_partial
#print axioms Hampi.Compiler.Props.C59_cyclic_lost_violated
#print axioms Hampi.Compiler.Props.C59_recursive_type_violated
#print axioms Hampi.Compiler.Props.C60_choice_keys
#print axioms Hampi.Compiler.Props.C60_root_alternatives
#print axioms Hampi.Compiler.Props.C61_optional_indexes
#print axioms Hampi.Compiler.Props.C62_generated_types
#print axioms Hampi.Compiler.Props.C62_every_type_has_a_codec
#print axioms Hampi.Compiler.Props.C62_schema_to_wire_partial
#print axioms Hampi.Compiler.Props.C63_module_order
#print axioms Hampi.Compiler.Props.C63_mutual_imports_violated
#print axioms Hampi.C64_layout_partial
#print axioms Hampi.C64_semi_constrained_violated
#print axioms Hampi.C64_short_string_violated
#print axioms Hampi.C64_utf8_constraint_violated
#print axioms Hampi.C64_extensible_list_violated
#print axioms Hampi.Compiler.C65_lines
#print axioms Hampi.Compiler.C66_columns_partial
#print axioms Hampi.Compiler.C66_after_split_string_violated
#print axioms Hampi.Compiler.C66_octets_violated
#print axioms Hampi.Compiler.C67_numbers_partial
#print axioms Hampi.Compiler.C67_lone_hyphen_violated
#print axioms Hampi.Compiler.C67_not_ascii_violated
#print axioms Hampi.Compiler.C68_union_accepted_partial
#print axioms Hampi.Compiler.C68_min_max_violated
#print axioms Hampi.Compiler.C68_parentheses_violated
#print axioms Hampi.Compiler.C68_inclusion_violated
#print axioms Hampi.Compiler.C69_octets_partial
#print axioms Hampi.Compiler.C69_bits_partial
#print axioms Hampi.Compiler.C69_characters_partial
#print axioms Hampi.Compiler.C69_outer_marker_violated
#print axioms Hampi.Compiler.C69_intersection_violated
#print axioms Hampi.Compiler.C69_union_violated
#print axioms Hampi.Compiler.C69_sequence_of_partial
#print axioms Hampi.Compiler.Props.C70_same_codec_violated
#print axioms Hampi.C70_fixed_size_violated
#print axioms Hampi.C70_ranap_plmn_violated
#print axioms Hampi.Compiler.Props.C70_reference_constraint_violated
#print axioms Hampi.Compiler.Props.C71_size_bound_violated
#print axioms Hampi.Compiler.Props.C71_value_reference_violated
#print axioms Hampi.Compiler.Props.C71_order_partial
#print axioms Hampi.Compiler.Props.C71_unimported_violated
#print axioms Hampi.Compiler.Props.C71_same_word_violated
#print axioms Hampi.Compiler.Props.C71_object_key_violated
#print axioms Hampi.Compiler.Props.C72_same_name_violated
#print axioms Hampi.Compiler.Props.C72_endless_recursion_violated
#print axioms Hampi.Compiler.Props.C72_separate_partial
#print axioms Hampi.Compiler.Props.C73_nothing_dangles_partial
#print axioms Hampi.Compiler.Props.C73_not_a_type_violated
#print axioms Hampi.Compiler.Props.C74_add_module_violated
#print axioms Hampi.Compiler.Props.C74_add_module_effect
#print axioms Hampi.Compiler.Props.C75_sequence_partial
#print axioms Hampi.Compiler.Props.C75_choice
#print axioms Hampi.Compiler.Props.C75_default_violated
#print axioms Hampi.Compiler.Props.C75_addition_groups_violated
#print axioms Hampi.Compiler.Props.C76_unknown_type_refused_partial
#print axioms Hampi.Compiler.Props.C76_unknown_type_in_choice_refused
#print axioms Hampi.Compiler.Props.C76_unknown_type_in_sequence_violated
#print axioms Hampi.Compiler.Props.C76_never_accepted_partial
#print axioms Hampi.Compiler.Props.C76_module_partial
#print axioms Hampi.Compiler.Props.C76_schema_partial
#print axioms Hampi.Compiler.Props.C76_beside_class_fields_violated
#print axioms Hampi.Compiler.Props.C77_class_components_kept_partial
#print axioms Hampi.Compiler.Props.C77_empty_set_violated
#print axioms Hampi.Compiler.Props.C77_other_set_violated
#print axioms Hampi.Compiler.Props.C77_ordinary_component_lost_violated
#print axioms Hampi.Compiler.Props.C77_optional_lost_violated
#print axioms Hampi.Compiler.Props.C78_table_of_a_set
#print axioms Hampi.Compiler.Props.C78_alternatives_of_the_objects
#print axioms Hampi.Compiler.Props.C78_inline_type_violated
#print axioms Hampi.Compiler.Props.C78_open_type_alternatives_partial
#print axioms Hampi.Compiler.Props.C78_keys_once
#print axioms Hampi.Compiler.Props.C78_literal_key_violated
#print axioms Hampi.Compiler.Props.C79_no_cycles_partial
#print axioms Hampi.Compiler.Props.C79_cycle_violated
#print axioms Hampi.Compiler.Props.C80_nested_name_violated
#print axioms Hampi.Compiler.Props.C80_definitions_partial
#print axioms Hampi.Compiler.Props.C80_all_names_partial
#print axioms Hampi.Compiler.Props.C80_unnamed_types_partial
#print axioms Hampi.Compiler.Props.C80_unnamed_and_defined_violated
#print axioms Hampi.Compiler.Props.C81_keyword_violated
#print axioms Hampi.Compiler.Props.C81_same_field_violated
#print axioms Hampi.Compiler.Props.C81_self_violated
#print axioms Hampi.Compiler.Props.C81_fields_differ_partial
#print axioms Hampi.Compiler.Props.C82_constants_partial
#print axioms Hampi.Compiler.Props.C82_many_values_violated
#print axioms Hampi.Compiler.Props.C82_explicit_numbers_violated
#print axioms Hampi.Compiler.Props.C83_addition_keys_violated
#print axioms Hampi.Compiler.Props.C83_root_keys_partial
#print axioms Hampi.Compiler.Props.C84_enumeration_partial
#print axioms Hampi.Compiler.Props.C85_written_is_read
#print axioms Hampi.Compiler.Props.C85_unambiguous
#print axioms Hampi.Compiler.Props.C85_result_is_stable
#print axioms Hampi.Compiler.Props.C86_termination_violated
#print axioms Hampi.Compiler.Props.C86_termination_partial
#print axioms Hampi.Compiler.Props.C86_hangs_only_where_stuck_partial
#print axioms Hampi.Compiler.Props.C87_no_panic_violated
#print axioms Hampi.Compiler.Props.C87_no_panic_partial
#print axioms Hampi.Compiler.Props.C88_addition_in_root_violated
#print axioms Hampi.Compiler.Props.C88_sequence_partial
#print axioms Hampi.Compiler.Props.C89_addition_order_violated
#print axioms Hampi.Compiler.Props.C89_second_marker_violated
#print axioms Hampi.Compiler.Props.C89_choice_partial
#print axioms Hampi.Compiler.Props.C90_redefinition_violated
#print axioms Hampi.Compiler.Props.C90_definitions_partial
#print axioms Hampi.Compiler.Props.C91_octet_violated
#print axioms Hampi.Compiler.Props.C91_malformed_violated
#print axioms Hampi.Compiler.Props.C91_structure_partial
#print axioms Hampi.Compiler.Props.C92_oid_names_violated
#print axioms Hampi.Compiler.Props.C92_large_arc_violated
#print axioms Hampi.Compiler.Props.C92_refused_violated
#print axioms Hampi.Compiler.Props.C92_accepted_partial
#print axioms Hampi.Compiler.Props.C93_instance_partial
#print axioms Hampi.Compiler.Props.C93_count
#print axioms Hampi.Compiler.Props.C93_parameters_violated
#print axioms Hampi.Compiler.C94_comment_after_word_violated
#print axioms Hampi.Compiler.C94_accepted_partial
#print axioms Hampi.Compiler.C94_accepted_iff
#print axioms Hampi.Compiler.C94_unique_partial
#print axioms Hampi.Compiler.Props.C95_schema_compiles
#print axioms Hampi.Compiler.Props.C95_one_meaning
#print axioms Hampi.Compiler.Props.C96_wire_partial
#print axioms Hampi.Compiler.Props.C96_empty_list_violated
#print axioms Hampi.Compiler.Props.C96_short_string_violated
#print axioms Hampi.Compiler.Props.C97_text_to_rust
#print axioms Hampi.Compiler.Props.C98_file_order_partial
#print axioms Hampi.Compiler.Props.C98_replaced_violated
#print axioms Hampi.Compiler.Props.C99_all_files_read
#print axioms Hampi.Compiler.Props.C99_first_error
#print axioms Hampi.Compiler.Props.C99_binary_violated
#print axioms Hampi.Compiler.Props.C100_macro_reads_attributes
#print axioms Hampi.Compiler.Props.C100_integer_types
#print axioms Hampi.Compiler.Props.C100_text_to_codec
#print axioms Hampi.Compiler.Props.C100_optional_key_violated
#print axioms Hampi.Compiler.Props.C101_unknown_refused_partial
#print axioms Hampi.Compiler.Props.C101_fields_refused_partial
#print axioms Hampi.Compiler.Props.C101_variants_refused_partial
#print axioms Hampi.Compiler.Props.C101_doc_comment_refused
#print axioms Hampi.Compiler.Props.C101_repeated_violated
#print axioms Hampi.Compiler.Props.C101_irrelevant_violated
#print axioms Hampi.Compiler.Props.C101_index_violated
#print axioms Hampi.Compiler.Props.C102_names_fit_partial
#print axioms Hampi.Compiler.Props.C102_used_name_violated
#print axioms Hampi.Compiler.Props.C102_data_violated
#print axioms Hampi.Compiler.Props.C103_objects_read_partial
#print axioms Hampi.Compiler.Props.C103_same_name_violated
#print axioms Hampi.Compiler.Props.C104_object_partial
#print axioms Hampi.Compiler.Props.C104_set_partial
#print axioms Hampi.Compiler.Props.C104_tokens_partial
#print axioms Hampi.Compiler.Props.C104_no_syntax_violated
#print axioms Hampi.Compiler.Props.C104_word_violated
#print axioms Hampi.Compiler.Props.C104_wrong_object_violated
#print axioms Hampi.Compiler.Props.C104_bit_string_violated
#print axioms Hampi.Compiler.Props.C104_identified_by_violated
#print axioms Hampi.C105_panics_iff
#print axioms Hampi.C105_index_iff
#print axioms Hampi.C105_no_panic_partial
#print axioms Hampi.C105_extension_violated
#print axioms Hampi.C105_empty_list_violated
#print axioms Hampi.C105_exact_bounds_partial
#print axioms Hampi.C105_short_partial
#print axioms Hampi.C106_decoded_size_partial
#print axioms Hampi.C106_amplification_violated
#print axioms Hampi.C106_ngap_partial
#print axioms Hampi.C106_s1ap_partial
#print axioms Hampi.C106_ranap_partial
#print axioms Hampi.C106_messages_violated
#print axioms Hampi.C107_canonical_partial
#print axioms Hampi.C107_message_partial
#print axioms Hampi.C107_one_message_partial
#print axioms Hampi.C107_extension_bit_violated
#print axioms Hampi.C107_long_length_violated
#print axioms Hampi.C107_leading_zeros_violated
#print axioms Hampi.C107_oversized_list_violated
#print axioms Hampi.C108_root_partial
#print axioms Hampi.C108_next_component_violated
#print axioms Hampi.C109_key_of_record_partial
#print axioms Hampi.C109_round_trip_partial
#print axioms Hampi.C109_nested_key_violated
#print axioms Hampi.C110_ngap_partial
#print axioms Hampi.C110_s1ap_partial
#print axioms Hampi.C110_ranap_partial
#print axioms Hampi.C110_ngap_violated
#print axioms Hampi.C110_s1ap_violated
#print axioms Hampi.C110_ranap_violated
#print axioms Hampi.C111_panics_iff
#print axioms Hampi.C111_violated
#print axioms Hampi.C111_empty_message_violated
#print axioms Hampi.ShortMessages.C111_short_partial
#print axioms Hampi.ShortMessages.C111_more_empty_messages_violated
#print axioms Hampi.C112_encode
#print axioms Hampi.C112_decode
#print axioms Hampi.C112_library_decoders
#print axioms Hampi.C112_library_encoders
#print axioms Hampi.C112_round_trip
#print axioms Hampi.C112_no_panic
#print axioms Hampi.C113_semi_constrained
#print axioms Hampi.C113_encode_partial
#print axioms Hampi.C113_decode_partial
#print axioms Hampi.C113_semi_constrained_violated
#print axioms Hampi.C113_below_bound_violated
#print axioms Hampi.C113_empty_list_violated
#print axioms Hampi.C113_empty_list_read_violated
#print axioms Hampi.C113_hostile_octets
#print axioms Hampi.C113_empty_open_type
#print axioms Hampi.C114_no_panic_partial
#print axioms Hampi.C114_empty_extensible_violated
#print axioms Hampi.C114_empty_list_in_open_type_violated
#print axioms Hampi.C114_ngap_violated
#print axioms Hampi.C114_panics_iff
#print axioms Hampi.C115_set_bit
#print axioms Hampi.C115_swap_bits
#print axioms Hampi.C115_swap_bits_panics
#print axioms Hampi.C115_swap_bits_twice
#print axioms Hampi.C115_seek_back
#print axioms Hampi.C115_reserve_violated
#print axioms Hampi.C115_seek_beyond_violated
#print axioms Hampi.C115_patched_field
#print axioms Hampi.Compiler.Props.C116_no_deadlock
#print axioms Hampi.Compiler.Props.C116_formatting_returns
#print axioms Hampi.Compiler.Props.C117_result_partial
#print axioms Hampi.Compiler.Props.C117_not_text_violated
#print axioms Hampi.Compiler.Props.C117_write_error_violated
#print axioms Hampi.Compiler.Props.C117_unformatted_violated
#print axioms Hampi.Compiler.Props.C118_first_partial
#print axioms Hampi.Compiler.Props.C118_repeated_violated
#print axioms Hampi.Compiler.Props.C119_stale_violated
#print axioms Hampi.Compiler.Props.C119_kept_partial
#print axioms Hampi.C120_no_shared_encoding
#print axioms Hampi.C120_no_shared_message
#print axioms Hampi.C120_no_shared_stream
#print axioms Hampi.C120_too_long_shares
#print axioms Hampi.C121_any_buffer
#print axioms Hampi.C121_outcome
#print axioms Hampi.C121_encoded_iff
#print axioms Hampi.C122_newer_reads_partial
#print axioms Hampi.Compiler.Props.C122_generated_partial
#print axioms Hampi.Compiler.Props.C122_enumerated
#print axioms Hampi.C122_sequence_addition_violated
#print axioms Hampi.Compiler.Props.C122_first_object_violated
#print axioms Hampi.Compiler.Props.C122_schema_partial
#print axioms Hampi.Compiler.Props.C123_accepted
#print axioms Hampi.Compiler.Props.C123_ends
#print axioms Hampi.C124_no_panic
#print axioms Hampi.C124_ngap
#print axioms Hampi.C124_s1ap_partial
#print axioms Hampi.C124_s1ap_never
#print axioms Hampi.C124_ranap_partial
#print axioms Hampi.C124_ranap_never
#print axioms Hampi.C124_s1ap_violated
#print axioms Hampi.C124_ranap_violated
#print axioms Hampi.C125_decode_partial
#print axioms Hampi.C125_message_partial
#print axioms Hampi.C125_ngap_partial
#print axioms Hampi.C125_s1ap_partial
#print axioms Hampi.C125_ranap_partial
#print axioms Hampi.C125_two_pow_32_violated
#print axioms Hampi.C125_short_string_violated
#print axioms Hampi.C125_padding_violated
#print axioms Hampi.C125_ngap_violated
#print axioms Hampi.C125_blank_violated
#print axioms Hampi.Extract.C126_passages
#print axioms Hampi.Extract.C126_compiles_partial
#print axioms Hampi.Extract.C126_hyphens_violated
#print axioms Hampi.Extract.C126_start_violated
#print axioms Hampi.Extract.C126_stop_violated
#print axioms Hampi.Compiler.Props.C127_self_application_violated
#print axioms Hampi.Compiler.Props.C127_ends_partial
#print axioms Hampi.Compiler.Props.C127_without_parameters_partial
#print axioms Hampi.Compiler.Props.C128_codecs_partial
#print axioms Hampi.Compiler.Props.C128_names_violated
#print axioms Hampi.C129_relay_partial
#print axioms Hampi.C129_framed_partial
#print axioms Hampi.C129_ngap_partial
#print axioms Hampi.C129_s1ap_partial
#print axioms Hampi.C129_ranap_partial
#print axioms Hampi.C129_s1ap_violated
#print axioms Hampi.C129_text_violated
#print axioms Hampi.C130_longest_partial
#print axioms Hampi.C130_permitted
#print axioms Hampi.C130_ngap
#print axioms Hampi.C130_s1ap
#print axioms Hampi.C130_ranap
#print axioms Hampi.C130_large_refused
#print axioms Hampi.C130_lists_violated
#print axioms Hampi.C131_sent_partial
#print axioms Hampi.C131_ngap_sent_partial
#print axioms Hampi.C131_s1ap_sent_partial
#print axioms Hampi.C131_ranap_sent_partial
#print axioms Hampi.C131_received_partial
#print axioms Hampi.C131_ngap_received_violated
#print axioms Hampi.C131_lists_violated
#print axioms Hampi.C131_alphabet_violated
#print axioms Hampi.C131_characters_violated
#print axioms Hampi.C131_upper_bound_violated
#print axioms Hampi.Compiler.Props.C132_codecs
#print axioms Hampi.Compiler.Props.C133_positions
#print axioms Hampi.Compiler.Props.C133_layout
#print axioms Hampi.Compiler.Props.C134_parsed_partial
#print axioms Hampi.Compiler.Props.C134_program_partial
#print axioms Hampi.Compiler.Props.C134_violated
#print axioms Hampi.Compiler.Props.C135_files_partial
#print axioms Hampi.Compiler.Props.C135_joined_text
#print axioms Hampi.Compiler.Props.C135_joined_partial
#print axioms Hampi.Compiler.Props.C135_same_name_violated
#print axioms Hampi.Compiler.Props.C135_class_violated
#print axioms Hampi.Compiler.Props.C136_understood_partial
#print axioms Hampi.C137_accepted
#print axioms Hampi.C137_work_partial
#print axioms Hampi.C137_s1ap_partial
#print axioms Hampi.C137_ngap_partial
#print axioms Hampi.C137_ranap_partial
#print axioms Hampi.C137_panic_violated
#print axioms Hampi.C137_empty_message_violated
#print axioms Hampi.Compiler.C138_refused_iff
#print axioms Hampi.Compiler.C138_line
#print axioms Hampi.Compiler.C138_place_partial
#print axioms Hampi.Compiler.C138_column_violated
#print axioms Hampi.Compiler.Props.C139_inside_partial
#print axioms Hampi.Compiler.Props.C139_cut_partial
#print axioms Hampi.Compiler.Props.C139_cut_violated
#print axioms Hampi.Compiler.Props.C139_anywhere_partial
#print axioms Hampi.Compiler.Props.C139_legal_partial
#print axioms Hampi.Compiler.Props.C139_word_violated
#print axioms Hampi.Compiler.C140_below
#print axioms Hampi.Compiler.C140_lines
#print axioms Hampi.Compiler.Props.C141_resolving_partial
#print axioms Hampi.Compiler.Props.C141_generating_partial
#print axioms Hampi.Compiler.Props.C141_program_partial
#print axioms Hampi.Compiler.Props.C141_panics_violated
#print axioms Hampi.Compiler.Props.C142_deeper
#print axioms Hampi.Compiler.Props.C142_no_other
#print axioms Hampi.Compiler.Props.C143_ends_partial
#print axioms Hampi.Compiler.Props.C143_types_and_values_partial
#print axioms Hampi.Compiler.Props.C143_violated
#print axioms Hampi.Compiler.Props.C144_emits
#print axioms Hampi.Compiler.Props.C144_panics
#print axioms Hampi.Compiler.Props.C144_refused
#print axioms Hampi.Compiler.Props.C144_one
#print axioms Hampi.Compiler.Props.C145_identifiers
#print axioms Hampi.Compiler.Props.C145_names
