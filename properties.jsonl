{"id": "C01", "title": "Constrained INTEGER round-trip", "statement": "If encode_integer with both bounds given (extensible or not, any position in the buffer) returns Ok for a value, then decode_integer with the same parameters, started where the encoding began and with anything following, returns exactly that value with the flag 'not extended', and its position ends exactly at the end of the encoding.", "quantifier": "all i128 bounds lb<=ub, all values, all buffer contents before and after, all bit positions (aligned or not), extensible or not", "why_tests_cant": "There are 2^384 combinations of bounds and values times 8 alignments; each range class uses a different layout and tests only sample a few boundaries.", "anchors": ["codecs/src/aper/encode/mod.rs:encode_integer", "codecs/src/aper/encode/encode_internal.rs:encode_constrained_whole_number", "codecs/src/aper/decode/mod.rs:decode_integer", "codecs/src/aper/decode/decode_internal.rs:decode_constrained_whole_number"]}
{"id": "C02", "title": "Every value inside the bounds can be encoded", "statement": "encode_integer with bounds lb<=ub succeeds for every value lb<=v<=ub. (The code violates this: with more than 65536 permitted values the lower bound itself is refused.)", "quantifier": "all i128 bounds whose span fits i128, all values within them, all buffers", "why_tests_cant": "The failing value is one out of a range of at least 65537; sampling rarely hits it, and its absence elsewhere is a universal claim.", "anchors": ["codecs/src/aper/encode/encode_internal.rs:encode_constrained_whole_number"]}
{"id": "C03", "title": "Out-of-bounds values are refused", "statement": "encode_integer, encode_enumerated and encode_choice_idx return Err (never Ok, never a panic) for every value below the lower bound or above the upper bound of a bounded type, and below the lower bound of a semi-bounded type, and emit at most the one extension bit.", "quantifier": "all bounds, all out-of-bounds i128 values, all buffers, extensible or not", "why_tests_cant": "Unbounded input space; a wrong comparison at one edge escapes sampling.", "anchors": ["codecs/src/aper/encode/mod.rs:encode_integer", "codecs/src/aper/encode/mod.rs:encode_enumerated", "codecs/src/aper/encode/mod.rs:encode_choice_idx", "codecs/src/aper/encode/encode_internal.rs:encode_semi_constrained_whole_number"]}
{"id": "C04", "title": "Unconstrained INTEGER round-trip", "statement": "encode_integer without lower bound followed by decode_integer returns the same value. (The code violates this for values needing 9 to 15 octets, which encode but cannot be decoded.)", "quantifier": "all i128 values, all buffers and positions, extensible or not, any upper bound (ignored by the code)", "why_tests_cant": "The set of values is 2^128; the failing band is above 64 bits, where tests are rare.", "anchors": ["codecs/src/aper/encode/encode_internal.rs:encode_unconstrained_whole_number", "codecs/src/aper/decode/decode_internal.rs:decode_unconstrained_whole_number", "codecs/src/aper/mod.rs:AperCodecData::decode_bits_as_integer"]}
{"id": "C05", "title": "Semi-constrained INTEGER round-trip", "statement": "encode_integer with only a lower bound followed by decode_integer with the same parameters returns the same value, whenever the distance of the value from the lower bound is representable.", "quantifier": "all i128 lower bounds and values with v-lb < 2^127, all buffers and positions", "why_tests_cant": "Unbounded; encoder counts octets for a signed form while the decoder reads unsigned, so correctness at sign boundaries of each octet count must be argued, not sampled.", "anchors": ["codecs/src/aper/encode/encode_internal.rs:encode_semi_constrained_whole_number", "codecs/src/aper/decode/decode_internal.rs:decode_semi_constrained_whole_number"]}
{"id": "C06", "title": "Decoded constrained INTEGER is within bounds", "statement": "decode_integer with both bounds never returns Ok with a value outside the bounds. (Violated by the code when the bounds do not fill the bit field.)", "quantifier": "all bounds, all input bit strings, all positions", "why_tests_cant": "Quantifies over all hostile inputs.", "anchors": ["codecs/src/aper/decode/decode_internal.rs:decode_constrained_whole_number"]}
{"id": "C07", "title": "X.691 layout of constrained whole numbers", "statement": "The bits produced by encode_integer for a constrained value are exactly those X.691 (aligned variant) prescribes: minimal bit-field for up to 255 values, one aligned octet for 256, two aligned octets up to 65536, otherwise a length field sized for the largest offset followed by the minimal aligned octets. (Violated when the number of values is a power of 256 above 65536.)", "quantifier": "all bounds and values, all positions", "why_tests_cant": "Interoperability: peers are other implementations, so self round-trip tests cannot see a layout error that encoder and decoder share.", "anchors": ["codecs/src/aper/encode/encode_internal.rs:encode_constrained_whole_number", "codecs/src/aper/mod.rs:bytes_needed_for_range"]}
{"id": "C08", "title": "Minimal octets for unconstrained whole numbers", "statement": "The encoding of an unconstrained INTEGER is an aligned length octet n followed by the n-octet two's complement form of the value where n is the least number of octets able to hold it.", "quantifier": "all i128 values, all positions", "why_tests_cant": "2^128 values; boundary at every octet count and sign.", "anchors": ["codecs/src/aper/encode/encode_internal.rs:encode_unconstrained_whole_number"]}
{"id": "C09", "title": "Length determinant round-trip", "statement": "A length accepted by encode_length_determinent is returned unchanged by decode_length_determinent called with the same bounds and normally_small flag, consuming exactly the written bits.", "quantifier": "all size bounds 0<=lb<=ub (or absent), both normally_small settings, all lengths, all buffers and positions", "why_tests_cant": "Five layouts selected by bounds and value; the encoder and decoder select the layout by different tests.", "anchors": ["codecs/src/aper/encode/mod.rs:encode_length_determinent", "codecs/src/aper/decode/decode_internal.rs:decode_length_determinent", "codecs/src/aper/encode/encode_internal.rs:encode_normally_small_length_determinent"]}
{"id": "C10", "title": "Which lengths are accepted", "statement": "encode_length_determinent without normally_small accepts exactly the lengths permitted by the bounds and, when the upper bound is absent or at least 65536, below 16384; every other length is refused with Err.", "quantifier": "all size bounds and lengths", "why_tests_cant": "Decision over unbounded inputs including truncating casts.", "anchors": ["codecs/src/aper/encode/mod.rs:encode_length_determinent", "codecs/src/aper/encode/encode_internal.rs:encode_indefinite_length_determinent"]}
{"id": "C11", "title": "BIT STRING round-trip", "statement": "A bit string accepted by encode_bitstring is returned unchanged, bit for bit, by decode_bitstring with the same parameters, consuming exactly the written bits.", "quantifier": "all bit strings of every length, all size bounds, extensible or not, all buffers and positions", "why_tests_cant": "Unbounded strings; alignment rule depends on actual length and position.", "anchors": ["codecs/src/aper/encode/mod.rs:encode_bitstring", "codecs/src/aper/decode/mod.rs:decode_bitstring"]}
{"id": "C12", "title": "OCTET STRING round-trip", "statement": "An octet string accepted by encode_octetstring is returned unchanged by decode_octetstring with the same parameters, consuming exactly the written bits.", "quantifier": "all octet strings, all size bounds, extensible or not, all buffers and positions including unaligned ones", "why_tests_cant": "Unbounded strings; short strings are not aligned, so octets straddle storage bytes.", "anchors": ["codecs/src/aper/encode/mod.rs:encode_octetstring", "codecs/src/aper/decode/mod.rs:decode_octetstring", "codecs/src/aper/mod.rs:AperCodecData::get_bytes"]}
{"id": "C13", "title": "Character string round-trip", "statement": "A string accepted by encode_visible_string / encode_printable_string / encode_utf8_string is returned unchanged by the matching decode function. (Violated by the code on little-endian targets for strings of one or two octets that do not start on an octet boundary: octets are reassembled in the wrong order.)", "quantifier": "all strings, all size bounds, all buffers and positions", "why_tests_cant": "The failure needs a particular combination of length, bounds and bit position.", "anchors": ["codecs/src/aper/encode/mod.rs:encode_string", "codecs/src/aper/decode/decode_charstrings.rs:decode_string"]}
{"id": "C14", "title": "Character string decoding yields only valid text", "statement": "The string decoders return Ok only if the octets they assembled are valid UTF-8, the returned text has exactly those octets as its UTF-8 form, and otherwise return Err.", "quantifier": "all input buffers", "why_tests_cant": "All hostile inputs.", "anchors": ["codecs/src/aper/decode/decode_charstrings.rs:decode_string"]}
{"id": "C15", "title": "Fragmented strings are reassembled", "statement": "If the input holds an OCTET STRING, BIT STRING or character string without upper size bound, or with one of 65536 or more, cut, as X.691 prescribes, into any number of fragments of 16K/32K/48K/64K units followed by a last fragment below 16K, the decoder returns the concatenation and stops right after it. (Violated by character strings: the first fragment alone is returned, as Ok, and the rest is left to be read as the next field.)", "quantifier": "all numbers and sizes of fragments, all bounds, all contents, all starting positions", "why_tests_cant": "Unbounded number of fragments; test vectors of 64K and above are not practical to enumerate.", "anchors": ["codecs/src/aper/decode/mod.rs:decode_octetstring", "codecs/src/aper/decode/mod.rs:decode_bitstring", "codecs/src/aper/decode/decode_internal.rs:decode_indefinite_length_determinent"]}
{"id": "C16", "title": "ENUMERATED round-trip", "statement": "An index accepted by encode_enumerated is returned by decode_enumerated with the same parameters together with the flag 'root', consuming exactly the written bits.", "quantifier": "all bounds, indexes, buffers and positions, extensible or not", "why_tests_cant": "Unbounded parameters.", "anchors": ["codecs/src/aper/encode/mod.rs:encode_enumerated", "codecs/src/aper/decode/mod.rs:decode_enumerated"]}
{"id": "C17", "title": "CHOICE index round-trip", "statement": "An index accepted by encode_choice_idx is returned by decode_choice_idx with the same parameters together with the flag 'root', consuming exactly the written bits.", "quantifier": "all bounds, indexes, buffers and positions, extensible or not", "why_tests_cant": "Unbounded parameters.", "anchors": ["codecs/src/aper/encode/mod.rs:encode_choice_idx", "codecs/src/aper/decode/mod.rs:decode_choice_idx"]}
{"id": "C18", "title": "SEQUENCE header round-trip", "statement": "The presence bitmap given to encode_sequence_header is returned unchanged by decode_sequence_header called with its length, and the extension flag is returned as false.", "quantifier": "all bitmaps of every length, extensible or not, all positions", "why_tests_cant": "Unbounded bitmaps.", "anchors": ["codecs/src/aper/encode/mod.rs:encode_sequence_header", "codecs/src/aper/decode/mod.rs:decode_sequence_header"]}
{"id": "C19", "title": "BOOLEAN round-trip and footprint", "statement": "encode_bool writes exactly one bit, decode_bool reads exactly one bit and returns the value written.", "quantifier": "both values, all buffers and positions", "why_tests_cant": "Holds at every bit position of every buffer.", "anchors": ["codecs/src/aper/encode/mod.rs:encode_bool", "codecs/src/aper/decode/mod.rs:decode_bool"]}
{"id": "C20", "title": "Encoders only append", "statement": "Whatever a public encode function returns (Ok or Err), all bits that were in the buffer before are still there, unchanged and first, and the read position and the key are untouched; this holds over any sequence of encode calls.", "quantifier": "all encode functions, all arguments, all buffers, all finite histories of calls including failing ones", "why_tests_cant": "Histories are unbounded, and failing calls are usually followed by abandoning the buffer in tests.", "anchors": ["codecs/src/aper/encode/mod.rs", "codecs/src/aper/encode/encode_internal.rs", "codecs/src/aper/mod.rs:AperCodecData::align"]}
{"id": "C21", "title": "Decoders never alter the buffer and never move back or past the end", "statement": "Whatever a public decode function returns, the buffer contents are unchanged, the read position does not decrease and, if it was within the buffer, stays within it; this holds over any sequence of decode calls.", "quantifier": "all decode functions, all parameters, all buffers and positions, all finite histories", "why_tests_cant": "All hostile inputs and histories.", "anchors": ["codecs/src/aper/decode/mod.rs", "codecs/src/aper/decode/decode_internal.rs", "codecs/src/aper/decode/decode_charstrings.rs", "codecs/src/aper/mod.rs"]}
{"id": "C22", "title": "Decoding is unaffected by what follows or precedes", "statement": "If a decode function returns Ok then it returns the same value and consumes the same number of bits when arbitrary bits are appended to the buffer, and when the bits before the starting position are replaced by any others of the same length modulo 8.", "quantifier": "all decode functions, parameters, buffers, positions, suffixes and prefixes", "why_tests_cant": "Universal over two unrelated inputs.", "anchors": ["codecs/src/aper/decode/mod.rs", "codecs/src/aper/decode/decode_internal.rs", "codecs/src/aper/decode/decode_charstrings.rs", "codecs/src/aper/mod.rs"]}
{"id": "C23", "title": "Truncated input is never accepted", "statement": "If decoding succeeds and consumes bits up to position p, then decoding the same input cut anywhere before p never returns Ok.", "quantifier": "all decode functions, parameters, buffers and cut points", "why_tests_cant": "Every cut point of every valid encoding.", "anchors": ["codecs/src/aper/decode/mod.rs", "codecs/src/aper/decode/decode_internal.rs", "codecs/src/aper/decode/decode_charstrings.rs", "codecs/src/aper/mod.rs"]}
{"id": "C24", "title": "Decoders do not panic on hostile octets", "statement": "On a buffer made from octets, every decode function called with sane parameters returns Ok or Err and never panics. (Violated by the code: semi-constrained integers, normally small numbers and additions to a bound near the i128 limits panic.)", "quantifier": "all octet buffers, all positions within them, all sane parameters", "why_tests_cant": "All hostile inputs.", "anchors": ["codecs/src/aper/decode/mod.rs", "codecs/src/aper/decode/decode_internal.rs", "codecs/src/aper/mod.rs:AperCodecData::decode_bits_as_integer"]}
{"id": "C25", "title": "Encoders do not panic", "statement": "Every encode function called with sane parameters returns Ok or Err and never panics. (Violated: normally small length 0; bounds whose span overflows i128.)", "quantifier": "all values and parameters, all buffers", "why_tests_cant": "Unbounded.", "anchors": ["codecs/src/aper/encode/mod.rs", "codecs/src/aper/encode/encode_internal.rs", "codecs/src/aper/mod.rs:AperCodecData::length_in_bytes"]}
{"id": "C26", "title": "Concatenated items decode in order", "statement": "Any list of items encoded one after the other into one buffer is returned, in order and complete, by the matching list of decode calls on that buffer.", "quantifier": "all finite lists of items of all primitive kinds, starting in any buffer", "why_tests_cant": "Unbounded histories with alignment depending on everything before.", "anchors": ["codecs/src/aper/encode/mod.rs", "codecs/src/aper/decode/mod.rs"]}
{"id": "C27", "title": "Encodings are unambiguous (prefix-free)", "statement": "Two different values of one type, encoded at the same bit position, never produce encodings of which one is a prefix of the other.", "quantifier": "all pairs of encodable values of each primitive type with fixed parameters, all positions", "why_tests_cant": "Quantifies over pairs of values.", "anchors": ["codecs/src/aper/encode/mod.rs", "codecs/src/aper/decode/mod.rs"]}
{"id": "C28", "title": "Alignment discipline", "statement": "Encoder alignment adds the least number of zero bits (0..7) reaching an octet boundary; decoder alignment accepts exactly zero padding and lands on the next boundary, and rejects any non-zero padding without moving.", "quantifier": "all buffers and positions", "why_tests_cant": "All positions and paddings.", "anchors": ["codecs/src/aper/mod.rs:AperCodecData::align", "codecs/src/aper/mod.rs:AperCodecData::decode_align"]}
{"id": "C29", "title": "A failed encode leaves the buffer as it was", "statement": "If a public encode function returns Err the buffer is unchanged. (Violated: the extension bit, alignment padding or a length may already have been written.)", "quantifier": "all encode functions, arguments and buffers", "why_tests_cant": "Needs all error paths.", "anchors": ["codecs/src/aper/encode/mod.rs", "codecs/src/aper/encode/encode_internal.rs"]}
{"id": "C30", "title": "Extended encodings are refused cleanly", "statement": "Every encode function asked to encode an extended value returns Err and leaves the buffer unchanged.", "quantifier": "all encode functions with an 'extended' argument, all other arguments and buffers", "why_tests_cant": "All arguments.", "anchors": ["codecs/src/aper/encode/mod.rs"]}
{"id": "C31", "title": "Extension additions are recognised on decode", "statement": "A value written by a conforming peer as an extension addition (extension bit 1, then unconstrained integer, or normally small number for ENUMERATED and CHOICE, or general length for strings) is returned by the decoder with the flag 'extended' where there is one, and consumes exactly its bits. (Violated by integers received in 9 to 15 octets, which are refused, and by character strings in fragments, of which only the first fragment is returned.)", "quantifier": "all extension indexes below 2^127, all integers of up to 16 octets, all strings, in fragments or not, all positions", "why_tests_cant": "The encoder cannot produce these, so tests need hand-made vectors.", "anchors": ["codecs/src/aper/decode/mod.rs", "codecs/src/aper/decode/decode_internal.rs:decode_normally_small_non_negative_whole_number"]}
{"id": "C32", "title": "Octet transport", "statement": "from_slice followed by into_bytes (and get_inner) is the identity on octets; into_bytes of an encoding has ceil(bits/8) octets, whose leading bits are the encoding and whose remaining bits are zero, so an encoding still decodes after being sent as octets.", "quantifier": "all octet sequences, all encodings of all values", "why_tests_cant": "Unbounded.", "anchors": ["codecs/src/aper/mod.rs:AperCodecData::from_slice", "codecs/src/aper/mod.rs:AperCodecData::into_bytes", "codecs/src/aper/mod.rs:AperCodecData::get_inner"]}
{"id": "C33", "title": "The open-type key is changed only by set_key", "statement": "No primitive encode or decode function changes the key; get_key returns the last value given to set_key.", "quantifier": "all functions, arguments, buffers, histories", "why_tests_cant": "Histories are unbounded.", "anchors": ["codecs/src/aper/mod.rs:AperCodecData::set_key", "codecs/src/aper/mod.rs:AperCodecData::get_key"]}
{"id": "C34", "title": "Size constraints are enforced by string encoders", "statement": "encode_bitstring, encode_octetstring and the character string encoders return Ok only for strings whose length in bits/octets is within the size bounds.", "quantifier": "all strings and bounds", "why_tests_cant": "Unbounded.", "anchors": ["codecs/src/aper/encode/mod.rs:encode_bitstring", "codecs/src/aper/encode/mod.rs:encode_octetstring", "codecs/src/aper/encode/mod.rs:encode_string"]}
{"id": "C35", "title": "X.691 layout of length determinants", "statement": "The bits written for a length are exactly those X.691 prescribes: constrained field when the upper bound is below 64K, otherwise aligned 0+7 or 10+14 bits; normally small lengths 1..64 as 0+6 bits. (Violated for normally small lengths 33..64.)", "quantifier": "all bounds, lengths and positions", "why_tests_cant": "Interoperability cannot be seen by self round-trip.", "anchors": ["codecs/src/aper/encode/mod.rs:encode_length_determinent", "codecs/src/aper/encode/encode_internal.rs:encode_normally_small_length_determinent"]}
{"id": "C36", "title": "Derived codecs round-trip", "statement": "For every type built from the derivable ASN.1 kinds (arbitrarily nested), if encoding a well-formed value returns Ok, decoding the result at the same alignment returns exactly that value.", "quantifier": "all types of the universe accepted by a syntactic check, all well-formed values, all buffers and positions", "why_tests_cant": "Types and values are recursively unbounded.", "anchors": ["codecs_derive/src/aper/seq.rs", "codecs_derive/src/aper/choice.rs", "codecs_derive/src/aper/seqof.rs", "codecs_derive/src/aper/open.rs", "codecs_derive/src/aper/integer.rs"]}
{"id": "C37", "title": "OPTIONAL components are reported faithfully", "statement": "In the encoding of a SEQUENCE the presence bit of an optional component is set exactly when the component is present, and decoding yields None for exactly the absent ones.", "quantifier": "all SEQUENCE types with any number of optional components, all values", "why_tests_cant": "2^n presence patterns for every n.", "anchors": ["codecs_derive/src/aper/seq.rs"]}
{"id": "C38", "title": "Unknown CHOICE alternatives are rejected", "statement": "Decoding a derived CHOICE returns Err when the index on the wire matches no alternative or when the extension bit is set.", "quantifier": "all CHOICE types, all buffers", "why_tests_cant": "All inputs.", "anchors": ["codecs_derive/src/aper/choice.rs"]}
{"id": "C39", "title": "A root CHOICE index never selects an extension alternative", "statement": "Decoding a CHOICE whose extension bit is 0 never returns an alternative declared after the extension marker. (Violated by the code: a bit field wider than the number of root alternatives reaches extension keys.)", "quantifier": "all CHOICE types, all inputs", "why_tests_cant": "Depends on type shape and hostile index.", "anchors": ["codecs_derive/src/aper/choice.rs", "asn-compiler/src/generator/asn/types/constructed/choice.rs"]}
{"id": "C40", "title": "SEQUENCE OF round-trip", "statement": "Encoding a SEQUENCE OF whose length is permitted and decoding it returns the same list. (Violated for the empty list.)", "quantifier": "all element types and lists of every permitted length", "why_tests_cant": "Unbounded lists.", "anchors": ["codecs_derive/src/aper/seqof.rs"]}
{"id": "C41", "title": "SEQUENCE OF size constraint is enforced", "statement": "Encoding a SEQUENCE OF whose number of elements violates the size constraint returns Err. (Violated: the length error is dropped and elements are written without a length.)", "quantifier": "all lists and size bounds", "why_tests_cant": "Unbounded.", "anchors": ["codecs_derive/src/aper/seqof.rs"]}
{"id": "C42", "title": "Open types decode by key", "statement": "An open type decodes to the alternative whose key equals the key set by the preceding key field; without a key or with an unknown key it returns Err.", "quantifier": "all open types, keys, inputs", "why_tests_cant": "All inputs and states of the key.", "anchors": ["codecs_derive/src/aper/open.rs", "codecs_derive/src/aper/seq.rs"]}
{"id": "C43", "title": "Open type length is honoured", "statement": "After decoding an open type the position is right after the number of octets announced by its length. (Violated: the length is ignored.)", "quantifier": "all inputs", "why_tests_cant": "All hostile lengths.", "anchors": ["codecs_derive/src/aper/open.rs"]}
{"id": "C44", "title": "Derived codecs keep the frame", "statement": "A derived encode only appends and leaves position and key alone; a derived decode never changes the buffer and never moves back or past the end; both on success and on error.", "quantifier": "all derivable types, values and buffers", "why_tests_cant": "Recursive types.", "anchors": ["codecs_derive/src/aper/"]}
{"id": "C45", "title": "Derived decoding ignores what follows", "statement": "If a derived decode returns Ok it returns the same on the same input followed by arbitrary bits, and never accepts an input cut before its end position.", "quantifier": "all types, inputs, suffixes, cut points", "why_tests_cant": "Universal over pairs of inputs.", "anchors": ["codecs_derive/src/aper/"]}
{"id": "C46", "title": "Extended ENUMERATED values are distinguishable", "statement": "A derived ENUMERATED decodes extension values to something different from every root value. (Violated: the extension flag is dropped.)", "quantifier": "all extensible ENUMERATED types, all inputs", "why_tests_cant": "All pairs of encodings.", "anchors": ["codecs_derive/src/aper/enumerated.rs"]}
{"id": "C47", "title": "Generated integer field never truncates", "statement": "Decoding a derived INTEGER returns the number on the wire unless it does not fit the Rust integer; for values within the constraint it is never truncated when the chosen width holds the bounds.", "quantifier": "all widths, bounds, inputs", "why_tests_cant": "Unbounded.", "anchors": ["codecs_derive/src/aper/integer.rs"]}
{"id": "C48", "title": "Encoding an open type never panics", "statement": "Encoding an open type returns Ok or Err. (Violated when the selected alternative encodes to zero bits.)", "quantifier": "all open types and values", "why_tests_cant": "Depends on nested emptiness.", "anchors": ["codecs_derive/src/aper/open.rs", "codecs/src/aper/mod.rs:AperCodecData::length_in_bytes"]}
{"id": "C49", "title": "Concatenated messages", "statement": "Messages encoded one after the other and each padded to octets decode back one by one, in order and completely: for values and types that C36 covers alone (no open type directly followed by a field that is not octet-aligned), and with the open-type key each message leaves carried over to the next.", "quantifier": "all lists of messages", "why_tests_cant": "Unbounded histories.", "anchors": ["codecs_derive/src/aper/", "codecs/src/aper/mod.rs"]}
{"id": "C50", "title": "Tokenizer is lossless", "statement": "On success the texts of the returned tokens, in order, with the skipped whitespace between them, are exactly the input: nothing but blanks, newlines and byte-order marks is dropped and nothing is invented.", "quantifier": "all input texts", "why_tests_cant": "Unbounded inputs.", "anchors": ["asn-compiler/src/tokenizer/mod.rs:tokenize"]}
{"id": "C51", "title": "Tokenizer always terminates and progresses", "statement": "Every token consumes at least one character, so tokenize makes at most as many steps as there are characters.", "quantifier": "all input texts", "why_tests_cant": "Termination on all inputs.", "anchors": ["asn-compiler/src/tokenizer/mod.rs:tokenize"]}
{"id": "C52", "title": "Tokenizer does not panic", "statement": "tokenize returns Ok or Err on every text. (Violated: empty input, unknown characters such as carriage return, a final '-' or bracket panic.)", "quantifier": "all input texts", "why_tests_cant": "All inputs.", "anchors": ["asn-compiler/src/tokenizer/mod.rs:tokenize", "asn-compiler/src/tokenizer/mod.rs:get_maybe_comment_token"]}
{"id": "C53", "title": "Reserved words and only they are keywords", "statement": "A word token is classified as keyword exactly when its text is one of the reserved words, a word token never ends in '-' nor contains '--', and '&' words are field references.", "quantifier": "all input texts", "why_tests_cant": "Unbounded identifiers.", "anchors": ["asn-compiler/src/tokenizer/mod.rs:get_identifier_or_keyword_token"]}
{"id": "C54", "title": "Union of integer constraints", "statement": "The value set computed for a union of single values and ranges contains exactly the integers the ASN.1 union denotes.", "quantifier": "all unions of any number of elements over i128", "why_tests_cant": "Unbounded expressions.", "anchors": ["asn-compiler/src/resolver/asn/types/constraints.rs:ElementSet::get_integer_valueset", "asn-compiler/src/resolver/asn/structs/types/constraints.rs:ConstraintValues"]}
{"id": "C55", "title": "Intersection of integer constraints", "statement": "The value set computed for an intersection contains exactly the integers in every operand. (Violated.)", "quantifier": "all intersections", "why_tests_cant": "Unbounded expressions.", "anchors": ["asn-compiler/src/resolver/asn/types/constraints.rs:IntersectionSet::get_integer_valueset"]}
{"id": "C56", "title": "Effective bounds cover the value set", "statement": "The lower and upper bound used for encoding are the minimum and maximum of the value set. (Violated when the set mixes single values and ranges.)", "quantifier": "all value sets", "why_tests_cant": "Unbounded sets.", "anchors": ["asn-compiler/src/resolver/asn/structs/types/constraints.rs:ConstraintValues::max", "asn-compiler/src/resolver/asn/structs/types/constraints.rs:ConstraintValues::min"]}
{"id": "C57", "title": "Generated integer type holds every permitted value", "statement": "The Rust integer type chosen for a constrained INTEGER can represent every permitted value. (Violated for signed ranges with a large positive side and beyond 64 bits.)", "quantifier": "all constraints over i128", "why_tests_cant": "Unbounded.", "anchors": ["asn-compiler/src/resolver/asn/types/base/integer.rs", "asn-compiler/src/generator/asn/types/base/integer.rs"]}
{"id": "C58", "title": "Definitions are processed after what they reference", "statement": "In the order used to resolve a module every definition comes after all definitions it references, each at most once, and every definition not involved in or depending on a cycle is present. (Violated for references in the size of a SEQUENCE OF, in FROM and CONTAINING constraints, in values and defaults, and in objects: they do not count.)", "quantifier": "all sets of definitions and imports, all dependency graphs, all iteration orders of the hash maps", "why_tests_cant": "All graphs of every size, and all the places of a definition where a reference may stand.", "anchors": ["asn-compiler/src/parser/asn/structs/module.rs:definitions_sorted", "asn-compiler/src/parser/asn/structs/types/mod.rs:dependent_references", "asn-compiler/src/parser/asn/structs/types/constructed.rs", "asn-compiler/src/resolver/asn/types/constraints.rs:dependent_references", "asn-compiler/src/parser/asn/structs/types/ioc.rs"]}
{"id": "C59", "title": "No definition is silently lost", "statement": "Every definition of a module is resolved or reported. (Violated: definitions on or depending on a reference cycle are dropped silently.)", "quantifier": "all dependency graphs", "why_tests_cant": "All graphs.", "anchors": ["asn-compiler/src/parser/asn/structs/module.rs:definitions_sorted", "asn-compiler/src/resolver/int.rs:resolve_definitions"]}
{"id": "C60", "title": "CHOICE keys and bounds generated consistently", "statement": "The generated keys of the root alternatives are 0..n-1 in order and the index bounds are 0 and n-1, so every root alternative is encodable and distinct.", "quantifier": "all CHOICE types with a non-empty root", "why_tests_cant": "Any number of alternatives.", "anchors": ["asn-compiler/src/generator/asn/types/constructed/choice.rs"]}
{"id": "C61", "title": "Optional indexes generated consistently", "statement": "The generated optional indexes are 0..k-1 in declaration order, without gaps or repeats, and the announced number of optional fields is k.", "quantifier": "all SEQUENCE types", "why_tests_cant": "Any number of components.", "anchors": ["asn-compiler/src/generator/asn/types/constructed/seq.rs"]}
{"id": "C62", "title": "Schema to wire", "statement": "For every type in the supported resolved subset, the codec derived from the generated attributes round-trips every value permitted by the constraints.", "quantifier": "all resolved types and permitted values", "why_tests_cant": "Two compilers composed; types and values unbounded.", "anchors": ["asn-compiler/src/generator", "codecs_derive/src/aper/"]}
{"id": "C63", "title": "Module order", "statement": "Modules are resolved only after the modules they import from.", "quantifier": "all import graphs", "why_tests_cant": "All graphs.", "anchors": ["asn-compiler/src/compiler.rs:sorted_modules"]}
{"id": "C64", "title": "Derived encodings have the X.691 layout", "statement": "The bits a derived encoder appends are the ones X.691 prescribes for the type and value: preamble and presence bitmap, components in declaration order, choice index, length determinants, open type wrapping.", "quantifier": "all derivable types and values, all alignments", "why_tests_cant": "Types and values nest without bound.", "anchors": ["codecs_derive/src/aper/", "codecs/src/aper/encode/mod.rs"]}
{"id": "C65", "title": "Tokenizer reports the right line", "statement": "The line reported for a token is one more than the number of newlines before it.", "quantifier": "all input texts", "why_tests_cant": "Unbounded inputs; any mixture of comments and strings over several lines.", "anchors": ["asn-compiler/src/tokenizer/mod.rs:tokenize"]}
{"id": "C66", "title": "Tokenizer reports the right column", "statement": "The column reported for a token is the number of characters between the last newline and the token. (Violated after a string or bit string written on several lines, and after comments.)", "quantifier": "all input texts", "why_tests_cant": "Unbounded inputs.", "anchors": ["asn-compiler/src/tokenizer/mod.rs:tokenize"]}
{"id": "C67", "title": "Number tokens are numbers", "statement": "The text of a number token is an optional hyphen followed by ASCII digits. (Violated by a lone hyphen and by non-ASCII numeric characters.)", "quantifier": "all input texts", "why_tests_cant": "Unbounded inputs.", "anchors": ["asn-compiler/src/tokenizer/mod.rs:get_number_token"]}
{"id": "C68", "title": "Every legal INTEGER constraint is accepted", "statement": "A constraint on INTEGER built from values, ranges, MIN and MAX, sets in parentheses, included types, unions and intersections resolves without an error. (Violated for MIN, MAX, parentheses and included named types.)", "quantifier": "all constraints over i128", "why_tests_cant": "Unbounded expressions.", "anchors": ["asn-compiler/src/resolver/asn/types/constraints.rs:get_integer_valueset", "asn-compiler/src/resolver/asn/types/constraints.rs:parse_or_resolve_value"]}
{"id": "C69", "title": "Size constraints are honoured", "statement": "The size bounds used by the generated codec of a string are the least and greatest permitted length, and it is extensible exactly when the written constraint has an extension marker. (Violated for a marker outside SIZE, for intersections and for unions of SIZE.)", "quantifier": "all size constraints", "why_tests_cant": "Unbounded expressions.", "anchors": ["asn-compiler/src/resolver/asn/types/constraints.rs:get_size_valueset", "asn-compiler/src/resolver/asn/types/constraints.rs:is_size_constraint"]}
{"id": "C70", "title": "Constraints on type references are honoured", "statement": "A constraint written on a reference to another type restricts the values of the new type. (Violated: it is ignored.)", "quantifier": "all schemas with a constrained type reference", "why_tests_cant": "All constraints and types.", "anchors": ["asn-compiler/src/resolver/asn/types/int.rs:resolve_reference_type"]}
{"id": "C71", "title": "Compilation is deterministic", "statement": "Whether a module is accepted, refused or makes the compiler panic does not depend on the iteration order of hash maps. (Violated by SEQUENCE OF sizes, by values and object keys that name another value of the module, and by names that are used without being imported; holds for proper schemas, see C95.)", "quantifier": "all modules and all iteration orders", "why_tests_cant": "The iteration order is random; a test run sees one.", "anchors": ["asn-compiler/src/parser/asn/structs/module.rs:definitions_sorted", "asn-compiler/src/resolver/int.rs:resolve_definitions"]}
{"id": "C72", "title": "Modules have separate name spaces", "statement": "Definitions of the same name in different modules do not influence each other. (Violated: the later one replaces the earlier one, which changes the meaning of types of the earlier module, and can lead to endless recursion. Holds for modules whose definitions have different names.)", "quantifier": "all sets of modules", "why_tests_cant": "All combinations of modules.", "anchors": ["asn-compiler/src/resolver/int.rs:resolve_definitions", "asn-compiler/src/compiler.rs:resolve_definitions"]}
{"id": "C73", "title": "No dangling type names", "statement": "When all modules have been resolved without error, every type named in a resolved definition is itself a resolved type. (Violated when a name is a type in one module and something else in another; holds otherwise.)", "quantifier": "all sets of modules and all orders of resolution", "why_tests_cant": "Modules, definitions and nesting unbounded.", "anchors": ["asn-compiler/src/resolver/asn/types/int.rs:resolve_reference_type", "asn-compiler/src/resolver/asn/types/constructed.rs", "asn-compiler/src/resolver/asn/types/ioc.rs"]}
{"id": "C74", "title": "Adding modules", "statement": "After adding a module it is found by its name, other modules are unaffected, and the result says whether it was new, as documented. (The last part is violated: it says the opposite.)", "quantifier": "all sets of modules", "why_tests_cant": "All histories of additions.", "anchors": ["asn-compiler/src/compiler.rs:add_module"]}
{"id": "C75", "title": "Resolution keeps components", "statement": "A resolved SEQUENCE or CHOICE has the components of the declared one, in order, each optional as declared, and is extensible as declared. (Violated for SEQUENCE components with DEFAULT and for those in addition groups.)", "quantifier": "all SEQUENCE and CHOICE types", "why_tests_cant": "Any number of components, nesting and types.", "anchors": ["asn-compiler/src/resolver/asn/types/constructed.rs:resolve_sequence_type", "asn-compiler/src/resolver/asn/types/constructed.rs:resolve_choice_type"]}
{"id": "C76", "title": "Unknown types are reported", "statement": "A definition that mentions an unknown type makes the compiler return an error, and nothing is generated for it. (Violated: in a SEQUENCE the compiler panics; beside components taken from a class, and in addition groups of a SEQUENCE, the unknown type goes unnoticed. Everywhere else, at any depth, such a definition is never accepted.)", "quantifier": "all definitions with an unknown type name", "why_tests_cant": "Any place in any definition.", "anchors": ["asn-compiler/src/resolver/asn/types/int.rs:resolve_reference_type", "asn-compiler/src/resolver/asn/types/constructed.rs:resolve_sequence_classfield_components"]}
{"id": "C77", "title": "Components of class-based SEQUENCE types are kept", "statement": "A SEQUENCE with components taken from an information object class keeps its other components and what is optional. (Violated; if the object set has no objects all components are lost. Components from the class are kept otherwise.)", "quantifier": "all such SEQUENCE types", "why_tests_cant": "Any number of components.", "anchors": ["asn-compiler/src/resolver/asn/types/constructed.rs:resolve_seq_components_for_objects"]}
{"id": "C78", "title": "Open type alternatives", "statement": "An open type governed by an object set has one alternative for each object of the set with a type, keyed by the number of the object's unique field, and no other. (Violated for objects keyed by a literal number and for types that are written out; holds for references to types, keyed by a named value.)", "quantifier": "all object sets", "why_tests_cant": "Any number of objects.", "anchors": ["asn-compiler/src/resolver/asn/types/constructed.rs:get_seq_component_for_object_set", "asn-compiler/src/resolver/asn/types/ioc.rs:resolve_object_set"]}
{"id": "C79", "title": "Resolved types are not circular", "statement": "Modules in which no type refers to itself are resolved to definitions in which no type refers to itself, so that every generated type stands for a codec. (Violated when two modules define the same name.)", "quantifier": "all sets of modules the compiler accepts", "why_tests_cant": "Chains of references of any length across any number of modules.", "anchors": ["asn-compiler/src/resolver/asn/types/int.rs:resolve_reference_type", "asn-compiler/src/compiler.rs:resolve_modules"]}
{"id": "C80", "title": "Generated type names are distinct", "statement": "Different types of a schema are given different Rust names. (Violated by types of components, which are named after the path to them; holds for the definitions themselves.)", "quantifier": "all sets of resolved definitions", "why_tests_cant": "All names and nestings.", "anchors": ["asn-compiler/src/generator/int.rs:to_type_ident", "asn-compiler/src/generator/int.rs:get_unique_name", "asn-compiler/src/generator/asn/types/constructed/mod.rs:generate_ident_and_aux_type_for_constucted"]}
{"id": "C81", "title": "Generated field names are usable", "statement": "Components get field names that rustc accepts and that differ within a struct. (Violated by Rust keywords other than `type`, and by names that differ only in how words are set off.)", "quantifier": "all SEQUENCE types", "why_tests_cant": "All names.", "anchors": ["asn-compiler/src/generator/int.rs:to_value_ident"]}
{"id": "C82", "title": "Enumeration constants", "statement": "The constant generated for a value of an enumeration is the number that is encoded for it: its position. (Violated beyond 256 values; enumerations with explicit numbers make the generator panic.)", "quantifier": "all ENUMERATED types", "why_tests_cant": "Any number of values.", "anchors": ["asn-compiler/src/resolver/asn/types/base/enumerated.rs:resolve_enumerated", "asn-compiler/src/generator/asn/types/base/enumerated.rs"]}
{"id": "C83", "title": "Keys tell alternatives apart", "statement": "Different alternatives of a generated CHOICE have different keys. (Violated as soon as there is an extension addition: additions are numbered from 0 again and decoders match on the number alone.)", "quantifier": "all CHOICE types", "why_tests_cant": "Any number of alternatives.", "anchors": ["asn-compiler/src/generator/asn/types/constructed/choice.rs:generate_choice", "codecs_derive/src/aper/choice.rs"]}
{"id": "C84", "title": "Enumerations take the positions of their values", "statement": "The codec generated for an ENUMERATED takes exactly the positions of the values of its root and is extensible exactly when the extension marker is written. (Enumerations with explicit numbers make the generator panic, see C82.)", "quantifier": "all ENUMERATED types", "why_tests_cant": "Any number of values, with and without additions.", "anchors": ["asn-compiler/src/resolver/asn/types/base/enumerated.rs:resolve_enumerated", "asn-compiler/src/generator/asn/types/base/enumerated.rs"]}
{"id": "C85", "title": "What is written is what is read", "statement": "When a text is written in the supported ASN.1 notation, parsing ends and gives exactly the modules that were written: every definition, component, constraint, class, object set and import, wherever comments stand. No text can be read as two different lists of modules.", "quantifier": "all lists of modules and all ways to write them in the supported notation", "why_tests_cant": "Types nest without bound and lists have any length.", "anchors": ["asn-compiler/src/parser/int.rs:parse", "asn-compiler/src/parser/asn/module.rs:parse_module", "asn-compiler/src/parser/asn/defs.rs:parse_definition", "asn-compiler/src/parser/asn/types/int.rs:parse_type", "asn-compiler/src/parser/asn/types/constraints.rs:parse_constraints"]}
{"id": "C86", "title": "The parser ends", "statement": "Parsing ends on every input, with modules or with an error. (Violated: stray tokens in a SEQUENCE, CHOICE or list of actual parameters make the parser loop for ever; it ends on every text written in the supported notation.)", "quantifier": "all token lists", "why_tests_cant": "A hang shows only on inputs nobody thought of.", "anchors": ["asn-compiler/src/parser/asn/types/constructed/seq.rs:parse_sequence_type", "asn-compiler/src/parser/asn/types/constructed/choice.rs:parse_choice_type", "asn-compiler/src/parser/asn/types/int.rs:parse_actual_params"]}
{"id": "C87", "title": "The parser does not panic", "statement": "Malformed input gives an error, never a panic. (Violated: a text that ends after OCTET or CHARACTER, or after `<` in a range, indexes past the end.)", "quantifier": "all token lists", "why_tests_cant": "All ways in which a text can be cut short.", "anchors": ["asn-compiler/src/parser/asn/types/int.rs:parse_type", "asn-compiler/src/parser/asn/types/constraints.rs:parse_range_elements"]}
{"id": "C88", "title": "Extension additions of a SEQUENCE", "statement": "Components written after `...` in a SEQUENCE are extension additions, those before it are not. (Violated: outside of addition groups a component after `...` becomes a component of the root.)", "quantifier": "all SEQUENCE types", "why_tests_cant": "Any number of components, groups and types of components.", "anchors": ["asn-compiler/src/parser/asn/types/constructed/seq.rs:parse_sequence_type"]}
{"id": "C89", "title": "Extension additions of a CHOICE", "statement": "The additions of a CHOICE are read in the order in which they are written. (Violated: additions outside of groups are put after all groups, and a second `...` is refused.)", "quantifier": "all CHOICE types", "why_tests_cant": "Any number of alternatives and groups.", "anchors": ["asn-compiler/src/parser/asn/types/constructed/choice.rs:parse_choice_type"]}
{"id": "C90", "title": "One definition per name", "statement": "All definitions of a module are kept under their names, and a second definition of a name is refused. (Violated: the last definition of a name silently replaces the others.)", "quantifier": "all modules in the supported notation", "why_tests_cant": "Any number of definitions of any kind.", "anchors": ["asn-compiler/src/parser/asn/module.rs:parse_module"]}
{"id": "C91", "title": "Malformed notation is refused", "statement": "Text that is not ASN.1 is refused. (Violated: a word after OCTET is not looked at, commas between components may be missing, SIZE without brackets is a value, after `<` any token counts as `..`, and OCTET is a word of a class syntax; whatever is accepted does have the structure of modules with named definitions.)", "quantifier": "all token lists", "why_tests_cant": "All malformed texts.", "anchors": ["asn-compiler/src/parser/asn/types/int.rs:parse_type", "asn-compiler/src/parser/asn/types/constructed/seq.rs:parse_sequence_type", "asn-compiler/src/parser/asn/types/constraints.rs:parse_range_elements", "asn-compiler/src/parser/asn/types/constraints.rs:parse_intersection_set"]}
{"id": "C92", "title": "Legal notation is accepted", "statement": "Every legal module is accepted. (Violated: EXPORTS, empty imports, EXTENSIBILITY IMPLIED, values TRUE, FALSE and NULL, tags, SEQUENCE SIZE (..) OF, a final class without syntax, arcs named `standard`, `member-body` or `recommendation`, arcs of more than 32 bits and several types are refused; the supported notation of C85 is accepted.)", "quantifier": "all legal modules", "why_tests_cant": "All legal texts.", "anchors": ["asn-compiler/src/parser/asn/module.rs:parse_module", "asn-compiler/src/parser/asn/values.rs:parse_value", "asn-compiler/src/parser/asn/types/ioc.rs:parse_class"]}
{"id": "C93", "title": "Instances of parameterized types", "statement": "An instance P {a, b} of a parameterized type P {x, y} ::= T is the type T with every parameter replaced by its actual parameter, all at the same time; an instance with the wrong number of parameters is refused. (Violated when an actual parameter has the name of a later parameter, and when a component has the name of a value parameter: the compiler then gives another type or never ends.)", "quantifier": "all parameter lists, actual parameters and bodies in the supported notation", "why_tests_cant": "All parameter lists, actual parameters and bodies.", "anchors": ["asn-compiler/src/parser/asn/defs.rs:apply_params", "asn-compiler/src/resolver/asn/types/int.rs:resolve_type"]}
{"id": "C94", "title": "Every text made of tokens is tokenized", "statement": "A text that consists of ASN.1 tokens separated by blanks is accepted and cut into exactly these tokens, with their types and texts, and there is only one way to cut it. (Except for a text whose last character is a token [, ], - or @: exactly these are refused. Violated for comments that follow a word at once.)", "quantifier": "all texts made of tokens", "why_tests_cant": "All texts.", "anchors": ["asn-compiler/src/tokenizer/mod.rs:tokenize"]}
{"id": "C95", "title": "Every proper schema compiles, to what it means", "statement": "A set of modules in which every definition is proper (booleans, null, object identifiers, integers and strings with simple bounds, enumerations, references, SEQUENCE, SEQUENCE OF, CHOICE, integer values, information object classes with objects and object sets, open types selected by a key, parameterized types with such sets as arguments; names distinct, imports found and not circular) is compiled without error, whatever the iteration order of the hash tables. The generated Rust has for each type of each module a type with exactly the bounds, optional bitmap, indices and widths X.680 and X.691 give it, imported and named bounds included.", "quantifier": "all sets of modules of any size and nesting in this subset, all orders in which hash tables are walked", "why_tests_cant": "All schemas and all hash orders; each run of a test sees one order.", "anchors": ["asn-compiler/src/compiler.rs:resolve_modules", "asn-compiler/src/resolver/int.rs:resolve_definitions", "asn-compiler/src/generator/int.rs:generate"]}
{"id": "C96", "title": "From a schema to the wire", "statement": "Every value permitted by a type of a proper schema can be sent with the generated code; the bits are those X.691 prescribes and the generated decoder gives the value back, wherever in a message it stands. (Not for the values that C13, C36, C40 and C64 exclude.)", "quantifier": "all proper schemas, all types in them, all permitted values, all positions in a message", "why_tests_cant": "All schemas and values.", "anchors": ["asn-compiler/src/compiler.rs:generate", "codecs_derive/src/lib.rs:aper_codec_derive", "codecs/src/aper/mod.rs"]}
{"id": "C97", "title": "The program turns schema texts into the Rust types they mean", "statement": "Given one or several files whose texts write a proper schema (modules with imports, booleans, integers, enumerations, strings, sequences, lists, choices, references, information objects, open types and parameterized types), however they are laid out and commented, the command line program generates for every type of every module a Rust type with the PER codec that the schema means by it.", "quantifier": "all lists of texts that spell a proper schema, every hash table order, every large enough recursion depth", "why_tests_cant": "The claim is about every text and every schema, through tokenizer, parser, resolver and generator at once; tests compile a few files.", "anchors": ["asn-compiler/src/bin/hampi-asn1c.rs:main", "asn-compiler/src/tokenizer/mod.rs:tokenize", "asn-compiler/src/parser/int.rs:parse", "asn-compiler/src/compiler.rs:resolve_modules", "asn-compiler/src/compiler.rs:generate"]}
{"id": "C98", "title": "The order of the files does not matter", "statement": "The program does the same whatever the order in which its files are given, and every file counts.", "quantifier": "all lists of files and their permutations, all hash table orders", "why_tests_cant": "There are as many orders as permutations, and hash tables add their own; a test fixes one.", "anchors": ["asn-compiler/src/bin/hampi-asn1c.rs:main", "asn-compiler/src/compiler.rs:add_module", "asn-compiler/src/compiler.rs:sorted_modules"]}
{"id": "C99", "title": "Nothing is generated unless every file was read", "statement": "If a file is missing, is not text or is not accepted by the tokenizer or the parser, the program generates nothing and returns that error, the first in the order of the files.", "quantifier": "all lists of files", "why_tests_cant": "Any file can be the bad one, in any way; tests try a few.", "anchors": ["asn-compiler/src/bin/hampi-asn1c.rs:main", "asn-compiler/src/tokenizer/mod.rs:tokenize"]}
{"id": "C100", "title": "The derive macro implements what the compiler wrote", "statement": "For every generated type the derive macro accepts the attributes the compiler wrote and derives exactly the codec they stand for; so the derived codec of every type of a proper schema is the one X.680/X.691 mean by the text, as long as rustc accepts the names. (Violated by a component that is optional and selects an open type: the compiler writes an attribute with two commas, which the macro refuses.)", "quantifier": "all generated files; all texts of proper schemas; all types in them", "why_tests_cant": "Compiler and macro are tested separately on a few types; agreement must hold for every combination of attributes.", "anchors": ["codecs_derive/src/lib.rs:derive", "codecs_derive/src/attrs.rs", "codecs_derive/src/aper/mod.rs:generate_codec", "asn-compiler/src/generator/asn/types"]}
{"id": "C101", "title": "Attributes are not ignored", "statement": "An attribute the derive macro does not understand, of an item, a field or a variant, is a compile error, never silently dropped; contradictory attributes are refused. (The first holds; violated by repeated entries, of which the last counts, by entries that mean nothing for the type, and by indexes beyond the number of optional fields, which make encoders panic.)", "quantifier": "all items with attributes", "why_tests_cant": "All combinations of attributes.", "anchors": ["codecs_derive/src/attrs.rs:parse_ty_meta_as_codec_params", "codecs_derive/src/attrs.rs:parse_fld_meta_as_codec_params", "codecs_derive/src/aper/seq.rs"]}
{"id": "C102", "title": "Generated names are accepted by rustc", "statement": "The names in a generated file do not collide with each other or with the names the file and the derived code use. (Violated by types called Result, Option, Vec, .. and by an optional component called data; holds if the names of the schema avoid these and become different Rust names.)", "quantifier": "all schemas", "why_tests_cant": "All names and nestings.", "anchors": ["asn-compiler/src/generator/int.rs:to_type_ident", "asn-compiler/src/generator/int.rs:get_unique_name", "codecs_derive/src/aper/seq.rs"]}
{"id": "C103", "title": "Objects are read with the class they name", "statement": "When the compiler reads an information object or the objects of a set, it uses the fields and the WITH SYNTAX of the class that the name stands for in that module: the module's own class, or the one imported from the module named in IMPORTS. Classes of modules resolved earlier are still known when later modules are read. (Violated when two modules define different classes of the same name; holds otherwise.)", "quantifier": "all sets of modules, all classes, objects and object sets, and every order in which hash tables are iterated", "why_tests_cant": "Depends on what earlier modules left in the resolver and on the order of modules; a test fixes one schema and sees one order.", "anchors": ["asn-compiler/src/resolver/int.rs:resolve_classes_in_current_module", "asn-compiler/src/resolver/int.rs:resolve_definitions", "asn-compiler/src/parser/asn/module.rs:resolve_object_classes", "asn-compiler/src/parser/asn/defs.rs:resolve_object_class"]}
{"id": "C104", "title": "Objects written in the syntax of their class have the fields they set", "statement": "An information object that is written in the WITH SYNTAX notation of its class, optional phrases left out or not, is read as exactly the fields it sets, with the types and values written, plus the defaults of the fields left out; the objects of a set are all read, each once, and nothing is added. (Violated for classes without a syntax, for types named like a word of the syntax, for syntaxes in which the words follow the setting (TYPE-IDENTIFIER), for bit strings; objects that miss a field are accepted.)", "quantifier": "all classes, all objects and object sets written in their syntax, all layouts", "why_tests_cant": "All classes with all phrases left out or not; tests have a handful of classes.", "anchors": ["asn-compiler/src/parser/asn/types/ioc.rs:parse_object_from_class", "asn-compiler/src/parser/asn/defs.rs:resolve_object_class"]}
{"id": "C105", "title": "Derived decoders do not panic on hostile octets", "statement": "Whatever octets a peer sends, decoding them into a derived type from any position returns Ok or Err: the decoder neither panics nor runs on without end.", "quantifier": "every derived type of any nesting, every octet string, every starting position, every object-set key", "why_tests_cant": "The panics need particular octets (an extension bit followed by a length of 17, a length of zero for a list of empty elements) in combination with particular attributes; sampling messages of a few types does not reach them and cannot exclude them for nested types.", "anchors": ["codecs_derive/src/aper/seqof.rs:generate_aper_codec_for_asn_sequence_of", "codecs_derive/src/aper/choice.rs:generate_aper_codec_for_asn_choice", "codecs_derive/src/aper/seq.rs:generate_aper_codec_for_asn_sequence", "codecs/src/aper/decode/mod.rs:decode_choice_idx"]}
{"id": "C106", "title": "Decoded values are not larger than the message warrants", "statement": "The size of the value a derived decoder returns (its characters, octets, bits, list elements and components) is at most a constant of the type times one plus the number of bits it consumed, so that a short message cannot make the receiver allocate without bound. For the messages of NGAP, S1AP and RANAP the constant is stated: at most 70, 62 and 62 values that take memory per octet, although lists of entries without components make seven octets of a PRIVATE MESSAGE decode to 65542 values, each of which takes time.", "quantifier": "every derived type of any nesting, every buffer, position and key on which decoding succeeds", "why_tests_cant": "An amplification shows only for types whose list elements occupy no bits, nested to some depth; a test fixes both the type and the message.", "anchors": ["codecs_derive/src/aper/seqof.rs:generate_aper_codec_for_asn_sequence_of", "codecs/src/aper/decode/mod.rs:decode_length_determinent"]}
{"id": "C107", "title": "Decoding is canonical", "statement": "Whatever bits a derived decoder accepts, encoding the value it returned gives exactly those bits back; so no two different messages are read as the same value, and a relay that decodes and re-encodes does not alter messages. (Violated where the decoder accepts forms the encoder never writes: extension bit of a SEQUENCE, lengths and integers that are not minimal, the length of an open type, lists longer than their SIZE.)", "quantifier": "every derived type of any nesting, every buffer, position and alignment, every accepted message", "why_tests_cant": "Round-trip tests start from values; the messages that break this are exactly those no encoder of the library writes.", "anchors": ["codecs_derive/src/aper/seq.rs:generate_aper_codec_for_asn_sequence", "codecs_derive/src/aper/seqof.rs:generate_aper_codec_for_asn_sequence_of", "codecs/src/aper/decode/mod.rs:decode_sequence_header", "codecs/src/aper/decode/decode_internal.rs:decode_indefinite_length_determinent"]}
{"id": "C108", "title": "Messages of a newer version are read", "statement": "A message in which a peer with a newer version of the schema sets the extension bit of a SEQUENCE and appends extension additions is read as the root components the peer sent, and decoding goes on after the additions. (Violated: the additions are not skipped, the next component is read from them.)", "quantifier": "every extensible SEQUENCE, every list of additions, every message around them", "why_tests_cant": "The library cannot write such messages; tests would need hand-made vectors for every position an extensible SEQUENCE can stand in.", "anchors": ["codecs_derive/src/aper/seq.rs:generate_aper_codec_for_asn_sequence", "codecs/src/aper/decode/mod.rs:decode_sequence_header"]}
{"id": "C109", "title": "Open types are read as announced by their own record", "statement": "In every value a derived decoder returns, each open type holds the alternative that the key component of the same record announces; and a value that announces its open types so comes back from its encoding, whatever key the codec still held from an earlier message. (Violated when a record nested between the key and the open type has a key of its own.)", "quantifier": "every derived type of any nesting, every value and every message, every key left from earlier", "why_tests_cant": "The key is state of the codec shared by all records; which nestings overwrite it before it is used depends on the whole type, and tests have a few types.", "anchors": ["codecs_derive/src/aper/seq.rs:generate_aper_codec_for_asn_sequence", "codecs_derive/src/aper/open.rs:generate_aper_codec_for_asn_open_type", "codecs/src/aper/mod.rs:AperCodecData::set_key"]}
{"id": "C110", "title": "Messages of NGAP, S1AP and RANAP come back", "statement": "Every message of the three protocols whose types are shipped with the project (97 messages of NGAP, 98 of S1AP, 85 of RANAP) that is permitted by its types and encodes is decoded from its octets as the same message. (Violated by the NG SETUP RESPONSE, the S1 SETUP REQUEST and the RAB ASSIGNMENT REQUEST, among others; holds for all but 21, 11 and 39 of the messages, and for these if the contents of their open types end at octets.)", "quantifier": "every value of every message of the three protocols", "why_tests_cant": "The shipped tests decode one or two messages per protocol; the failures need particular combinations of extensions in list elements.", "anchors": ["examples/tests/13-ngap.rs:NGAP_PDU", "examples/tests/12-s1ap.rs:S1AP_PDU", "examples/tests/11-ranap.rs:RANAP_PDU", "codecs_derive/src/aper/open.rs:generate_aper_codec_for_asn_open_type"]}
{"id": "C111", "title": "A peer cannot bring down a receiver of NGAP, S1AP or RANAP", "statement": "The decoders of the protocol data units of the three protocols return Ok or Err for all octets a peer can send. (Violated: nineteen octets make each of the three panic, and the seven octets of a valid OVERLOAD STOP, RELOCATION DETECT or RELOCATION COMPLETE keep the decoder in a loop of 2^64 rounds.)", "quantifier": "every octet string, for each of the three protocol data units", "why_tests_cant": "A test decodes the messages its author thought of.", "anchors": ["examples/tests/13-ngap.rs:OverloadStopProtocolIEs", "examples/tests/11-ranap.rs:RelocationDetectProtocolIEs", "codecs_derive/src/aper/seqof.rs:generate_aper_codec_for_asn_sequence_of", "codecs/src/aper/decode/mod.rs:decode_choice_idx"]}
{"id": "C112", "title": "A release build does what a debug build does", "statement": "Wherever the codecs compiled with overflow checks return Ok or Err, the codecs compiled without them return the same and leave the same buffer behind; in particular a release build encodes every permitted value, reads back what it wrote, and withstands the octets a debug build withstands.", "quantifier": "all types, values, parameters and buffers on which the debug build does not panic", "why_tests_cant": "Tests run in one profile; that two builds agree on all inputs is a statement about both programs.", "anchors": ["codecs/src/aper/mod.rs: AperCodecData", "codecs/src/aper/encode/encode_internal.rs: encode_constrained_whole_number, encode_semi_constrained_whole_number, encode_normally_small_length_determinent", "codecs/src/aper/decode/decode_internal.rs: decode_constrained_whole_number, decode_semi_constrained_whole_number, decode_constrained_length_determinent", "codecs_derive/src/aper: generated encode and decode"]}
{"id": "C113", "title": "A release build returns no results of overflowed arithmetic", "statement": "A release build returns Ok only where a debug build returns Ok. (Violated: a number far above its lower bound is written as another one, INTEGER (1..MAX) is read as a negative number, and an empty list of an extensible size is written as the length of a list of 64.)", "quantifier": "all types, values and buffers", "why_tests_cant": "Tests run with overflow checks, where the inputs concerned panic; what is written without them shows only in release builds.", "anchors": ["codecs/src/aper/encode/encode_internal.rs: encode_semi_constrained_whole_number, encode_normally_small_length_determinent", "codecs/src/aper/decode/decode_internal.rs: decode_semi_constrained_whole_number", "codecs/src/aper/mod.rs: length_in_bytes", "codecs_derive/src/aper/seqof.rs"]}
{"id": "C114", "title": "Derived encoders do not panic", "statement": "Encoding any value of a derived type returns Ok or Err, whether or not the value satisfies its constraints. (Violated: by the empty list of every extensible size, by an open type that holds an empty list with a least size, as in an NG SETUP REQUEST without supported tracking areas, and by bounds 2^127 apart.)", "quantifier": "all types and all values of their Rust types", "why_tests_cant": "The values that panic sit deep in nested types, and a test tries single values.", "anchors": ["codecs_derive/src/aper/seqof.rs", "codecs_derive/src/aper/open.rs", "codecs_derive/src/aper/seq.rs", "codecs_derive/src/aper/choice.rs", "codecs/src/aper/mod.rs: length_in_bytes"]}
{"id": "C115", "title": "A buffer can be read again and changed in place", "statement": "set_bit changes the bit named and nothing else; swap_bits exchanges bits one for one, and a second call undoes the first; after seek back a value is decoded again as before; a field whose bits are swapped for those of another value reads as that value; reserve makes room at the current position. (Violated: reserve adds no bits and moves the reading position to its argument; after a seek beyond the end decoding panics.)", "quantifier": "all buffers, positions, types and values", "why_tests_cant": "Positions and contents are unbounded.", "anchors": ["codecs/src/aper/mod.rs: set_bit, swap_bits, seek, reserve"]}
{"id": "C116", "title": "Handing the code to the formatter never hangs", "statement": "If rustfmt, given the generated code, comes to an end by itself, then the call that hands it the code returns, whatever the length of the code, the size of the pipes and the way the threads and processes are scheduled.", "quantifier": "all programs in the place of rustfmt, all codes, all pipe capacities, all schedules", "why_tests_cant": "Deadlocks of pipes show only for codes longer than a pipe holds and under some schedules; a test runs one of each.", "anchors": ["asn-compiler/src/compiler.rs:rustfmt_generated_code"]}
{"id": "C117", "title": "What is printed is what the formatter made of the code", "statement": "The call returns all of what rustfmt prints for the generated code if rustfmt succeeds, and an error if it fails, under every schedule.", "quantifier": "all programs in the place of rustfmt, all codes, all schedules", "why_tests_cant": "The result depends on which thread is faster and on failures of another program, which tests do not provoke.", "anchors": ["asn-compiler/src/compiler.rs:rustfmt_generated_code"]}
{"id": "C118", "title": "Generating again gives the same code", "statement": "Calling `generate` again on the same compiler gives the same file, in which every type is defined once.", "quantifier": "all histories of add_module, resolve_modules and generate", "why_tests_cant": "Histories of calls are unbounded; tests generate once.", "anchors": ["asn-compiler/src/compiler.rs:generate", "asn-compiler/src/generator/int.rs:Generator::generate"]}
{"id": "C119", "title": "Only the modules that were added are generated", "statement": "The file that is generated holds the types of the modules that were added last under each name, and no others.", "quantifier": "all histories of add_module, resolve_modules and generate", "why_tests_cant": "Histories of calls are unbounded; tests add each module once.", "anchors": ["asn-compiler/src/compiler.rs:add_module", "asn-compiler/src/compiler.rs:resolve_modules", "asn-compiler/src/resolver/int.rs:resolve_definitions"]}
{"id": "C120", "title": "No two values share an encoding", "statement": "Of two different values of a derived type written to the same buffer, neither result is the beginning of the other: the octets of a message, padding included, are the encoding of at most one value, and so is a stream of messages of given types. This holds for the values the encoders accept within the sizes of the type, also for those this library's decoders misread, with each open type holding the variant its key announces.", "quantifier": "all derivable types, all pairs of values within the sizes of the type, all buffers they are appended to, all streams of messages", "why_tests_cant": "a test compares finitely many pairs of values; a collision needs only two among infinitely many", "anchors": ["codecs_derive/src/aper/seq.rs:generate_seq_codec", "codecs_derive/src/aper/seqof.rs", "codecs_derive/src/aper/choice.rs", "codecs_derive/src/aper/open.rs", "codecs/src/aper/encode/mod.rs:encode_integer", "codecs/src/aper/encode/mod.rs:encode_length_determinent"]}
{"id": "C121", "title": "How encoding ends depends on type and value alone", "statement": "Whether encoding a value of a derived type returns Ok, returns Err or panics does not depend on the buffer it is written to, and can be computed from the attributes of the type and the value: integers are refused outside of their bounds and at the lower bound of more than 65536 values, strings outside of their sizes, lists never; a panic happens only where the distance of bounds leaves an i128, for an empty list of extensible size, for an open type without content, or for an optional index beyond the bitmap.", "quantifier": "all derivable types with bounds of the attribute types, all values of the Rust types, all buffers", "why_tests_cant": "each test encodes a value into one buffer, mostly a new one; the table of outcomes has infinitely many types and values", "anchors": ["codecs/src/aper/encode/mod.rs", "codecs/src/aper/encode/encode_internal.rs", "codecs_derive/src/aper/seq.rs", "codecs_derive/src/aper/seqof.rs", "codecs_derive/src/aper/choice.rs", "codecs_derive/src/aper/open.rs"]}
{"id": "C122", "title": "A newer version of a schema reads the messages of an older one", "statement": "Take a schema and a newer version of it: the same, with more values after the extension marker of ENUMERATED types, more alternatives after the marker of CHOICE types, more objects in object sets, components added to SEQUENCE types after the marker, and more types. Code generated from the newer version decodes every message that code generated from the older one decodes, to the same value and up to the same place, and it encodes the values of the older version to the same bytes. (Fails for components added to a SEQUENCE outside of an addition group: they become components of the root. Fails for the first object of an object set: without objects the components that are looked up in the set are dropped.)", "quantifier": "All pairs of schemas where the second extends the first, all types of the first, all buffers and all values", "why_tests_cant": "Protocol versions are deployed side by side: every extension of every schema, at any depth, with every message of the older version.", "anchors": ["asn-compiler/src/resolver/asn/types/constructed.rs: resolve_choice_type", "asn-compiler/src/resolver/asn/types/base/enumerated.rs: resolve_enumerated", "codecs_derive/src/aper/choice.rs", "codecs_derive/src/aper/open.rs", "codecs_derive/src/aper/seq.rs"]}
{"id": "C123", "title": "Every token of an accepted text has its place", "statement": "Whatever text the compiler accepts, its tokens, comments aside, are modules of a grammar that is ASN.1 notation with a fixed list of liberties (commas that may be missing or superfluous, brackets around values, tokens that are read whatever they are after OCTET, CHARACTER and <, names defined twice), and the modules returned are exactly the ones written there: no token is dropped, nothing is invented, and nothing follows the last END.", "quantifier": "all texts, all classifications of numeric characters, all depths of nesting", "why_tests_cant": "accepting texts are infinitely many; a test shows that one text is read well, not that every text that is not refused is read as what it says", "anchors": ["asn-compiler/src/parser/int.rs:parse", "asn-compiler/src/parser/asn/module.rs:parse_module", "asn-compiler/src/parser/asn/types/mod.rs:parse_type", "asn-compiler/src/parser/asn/types/constructed/mod.rs", "asn-compiler/src/parser/asn/types/constraints.rs", "asn-compiler/src/parser/asn/types/ioc.rs", "asn-compiler/src/parser/asn/defs.rs"]}
{"id": "C124", "title": "A sender of NGAP, S1AP or RANAP does not panic", "statement": "Encoding a protocol data unit of the generated types returns Ok or Err, whatever numbers and strings it holds, as long as no list in it is shorter than its size allows. (Violated: an open type that holds a value of no bits panics, and no value of no bits can be sent in one. S1AP cannot send a KILL REQUEST for all warning messages nor a WRITE-REPLACE WARNING REQUEST with the concurrent warning indicator, RANAP no INITIAL UE MESSAGE with the redirect attempt flag and no LOCATION REPORTING CONTROL that includes the velocity.)", "quantifier": "all protocol data units of the three protocols, and any derived type whose attributes pass the stated check", "why_tests_cant": "There are hundreds of message types and elements; the shipped tests encode a handful of messages.", "anchors": ["codecs_derive/src/aper/open.rs", "codecs_derive/src/aper/seqof.rs", "codecs/src/aper/mod.rs: length_in_bytes", "codecs/src/aper/encode/mod.rs", "examples/tests/13-ngap.rs", "examples/tests/12-s1ap.rs", "examples/tests/11-ranap.rs"]}
{"id": "C125", "title": "Messages of a conforming peer are read", "statement": "The octets that X.691 (aligned PER) prescribes for a value within the extension roots, written by any other implementation, are decoded by the derived decoder to that value; met anywhere in a buffer, the decoder stops behind them. In particular the prescribed octets of an NGAP, S1AP or RANAP protocol data unit decode to it. (Proved for values without the cases that the decoders misread: ranges of 2^32 or 2^64 values, short strings of variable size, padding after an open type that is not followed by an octet boundary, open types without content bits, strings of 16K units and more, empty or extensible lists, object identifiers; for each kind of misreading a violating message is given.)", "quantifier": "all derived types, all values within the extension roots, all octets prescribed for them by the standard, all positions in a buffer, all surrounding bits", "why_tests_cant": "Tests decode a few captured messages or what the encoder itself wrote; interoperability is about every message that another implementation may send, including those the encoder of this code would write differently or refuse.", "anchors": ["codecs/src/aper/decode/mod.rs: decode_integer, decode_enumerated, decode_bitstring, decode_octetstring, decode_choice_idx, decode_sequence_header", "codecs/src/aper/decode/decode_internal.rs", "codecs_derive/src/aper/", "examples/tests/12-s1ap.rs", "examples/tests/13-ngap.rs"]}
{"id": "C126", "title": "The ASN.1 taken out of a specification is what it marks", "statement": "The script that extracts ASN.1 from a specification document writes a heading and then exactly the paragraphs between the markers -- ASN1START and -- ASN1STOP, markers included, in the order of the document and one per line; and the compiler reads from that file the modules these passages write. (Not when the command line contains two hyphens in a row, and markers followed by a blank are not recognised.)", "quantifier": "all documents, all command lines", "why_tests_cant": "A document has any number of passages and paragraphs.", "anchors": ["specs/parse_spec.py:main", "asn-compiler/src/tokenizer/mod.rs:tokenize"]}
{"id": "C127", "title": "Resolving ends", "statement": "The compiler, given a set of modules, ends: resolving the definitions returns the results or an error. (Violated: for P {X} ::= SEQUENCE { a X {X} } and A ::= P {P} the compiler recurses for ever. It ends when every chain of instances of parameterized types, each in the expansion of the one before, ends; in a schema without parameterized definitions it always ends, recursive types included.)", "quantifier": "all sets of modules without two definitions of one name, all orders the sort may choose", "why_tests_cant": "The depth of the recursion depends on the nesting of types and on the chains of expansions, which have no bound.", "anchors": ["asn-compiler/src/compiler.rs:Asn1Compiler::resolve_modules", "asn-compiler/src/resolver/int.rs:Resolver::resolve_definitions", "asn-compiler/src/resolver/asn/types/int.rs:resolve_type", "asn-compiler/src/parser/asn/defs.rs:apply_params"]}
{"id": "C128", "title": "Adding definitions does not change the codecs of the others", "statement": "When definitions, imports or modules are added to a schema, what is generated for the types that were there before stays the same: a release of a specification that only adds types and objects to other sets leaves the code for the old types alone. (Violated for names: the Rust types that stand for unnamed parts of a type carry a running number, so after an addition INTEGER_2 can be a different type. The codec of every type with a name in the schema stays the same.)", "quantifier": "all schemas with one definition per name that have a meaning in the modelled part of ASN.1, all additions that leave such a schema, all orders of hash tables", "why_tests_cant": "The codec of a type depends on definitions reached through references, imports, parameters and object sets; the additions are arbitrary.", "anchors": ["asn-compiler/src/generator/int.rs:Generator::get_unique_name", "asn-compiler/src/resolver/int.rs:Resolver::resolve_definitions", "asn-compiler/src/compiler.rs:Asn1Compiler::compile"]}
{"id": "C129", "title": "Passing a message on does not change it", "statement": "When octets received from anyone, also such as this encoder would not write, decode to a value, and the value is encoded again, the next receiver decodes the same value. (Violated: a list with more elements than its type permits is accepted and passed on without an error with a wrong count, so an S1 SETUP REQUEST with seven PLMNs arrives with one; and a text of one character that follows a bit arrives as another text. Proved for values without such lists and texts, and in which no padding of an open type is misread, for all of NGAP, S1AP and RANAP but the messages named in C110.)", "quantifier": "all octet strings, all types with attributes as the compiler writes them, and all messages of NGAP, S1AP and RANAP", "why_tests_cant": "The octets are arbitrary and need not be what any encoder wrote: lengths in a longer form, set extension bits, sizes out of bounds. Tests decode what was encoded.", "anchors": ["codecs/src/aper/decode/mod.rs", "codecs/src/aper/encode/mod.rs", "codecs_derive/src/aper/seqof.rs", "examples/tests/12-s1ap.rs", "examples/tests/13-ngap.rs"]}
{"id": "C130", "title": "No encoding is longer than its type allows", "statement": "The octets a value is encoded to are at most as many as can be computed from its type alone, so a buffer of that size is always enough; an NGAP, S1AP or RANAP message never has more than 16389 octets, whatever it contains, and content of an open type that would need more than 16383 octets is refused, not cut. (Violated by lists: one with more elements than its type permits is encoded without an error, and is longer. Proved for all values without such lists.)", "quantifier": "all types with any attributes, all values, all positions in the buffer; all values of the message types of NGAP, S1AP and RANAP", "why_tests_cant": "The bound is a maximum over all values, and the padding depends on where a value starts.", "anchors": ["codecs/src/aper/encode/mod.rs", "codecs/src/aper/encode/encode_internal.rs", "codecs_derive/src/aper/open.rs", "codecs_derive/src/aper/seqof.rs"]}
{"id": "C131", "title": "Only values that obey their type get through, but for lists, alphabets and room left by bounds", "statement": "A value that is encoded without an error obeys its ASN.1 type at every depth, open types included: each number is within its bounds, each bit, octet or character string has a size within its bounds. So it is for every NGAP, S1AP and RANAP message sent. Not checked when sending are the sizes of lists, the alphabets of PrintableString and VisibleString, the characters (rather than octets) of a UTF8String, and an upper bound without a lower bound; each is shown to let a wrong value through. What is decoded, from whatever octets, obeys its type when the bounds of the type leave no unused codes in their bit fields; otherwise it may not: an NGAP message with criticality 3, of an ENUMERATED of three values, is accepted.", "quantifier": "All derived types and all their values, for sending; all types whose bounds fill their fields and all octets, for receiving.", "why_tests_cant": "A schema has thousands of constraints, at all depths, and the values and octets that can reach them are unlimited; tests try a few on each side of a few bounds.", "anchors": ["codecs/src/aper/encode/mod.rs: encode_integer, encode_enumerated, encode_bitstring, encode_octetstring, encode_string, encode_length_determinent", "codecs/src/aper/decode/mod.rs: decode_integer, decode_enumerated, decode_bitstring, decode_octetstring", "codecs/src/aper/decode/decode_charstrings.rs: decode_string", "codecs/src/aper/decode/decode_internal.rs: decode_constrained_whole_number, decode_length_determinent", "codecs_derive/src/aper/seqof.rs"]}
{"id": "C132", "title": "Writing a schema differently does not change the codecs", "statement": "Giving a part of a type a name of its own, or writing a named type in place, calling components, alternatives, values of enumerations and numbers of INTEGERs by other names, and replacing a constraint by another with the same least and greatest value and the same extension marker (for example a literal bound by a named value, or a range by a union of ranges), leaves the codec of every type of the schema as it was: the generated code writes and reads the same bits. This holds at every depth, for several modules, and whatever the order of the hash tables.", "quantifier": "all proper schemas, all ways of rewriting them by naming, inlining and renaming any number of parts and replacing constraints, all orders of hash tables", "why_tests_cant": "Rewritings can be combined at any depth, and a named type takes another path through resolver and generator than one written in place; tests compare no two schemas.", "anchors": ["asn-compiler/src/resolver/asn/types/mod.rs", "asn-compiler/src/resolver/int.rs:Resolver::resolve_definitions", "asn-compiler/src/generator/int.rs:Generator::generate", "asn-compiler/src/generator/asn/types/mod.rs"]}
{"id": "C133", "title": "Layout and comments do not matter", "statement": "Two schema files that consist of the same words, but are laid out differently and have different comments, are the same to the compiler: whatever the other files are, and whether or not the schema is correct, the program ends in the same way and generates the same code. Positions of tokens never influence what is parsed.", "quantifier": "all pairs of texts that consist of the same words (identifiers, numbers, strings within one line, brackets, marks) with any blank characters and comments between them; all other files; all outcomes, errors and panics included", "why_tests_cant": "There are unlimited ways to lay out a text, and code that works on tokens with positions could depend on any of them; tests parse one layout each.", "anchors": ["asn-compiler/src/tokenizer/mod.rs:tokenize", "asn-compiler/src/parser/int.rs:parse", "asn-compiler/src/parser/asn/defs.rs:parse_type_assignment", "asn-compiler/src/bin/hampi-asn1c.rs:main"]}
{"id": "C134", "title": "The order of definitions in a module does not matter", "statement": "When the definitions of a module, or its imports, are written in another order, the parser makes the same module of them, so the program generates the same code. (Violated: a class without WITH SYNTAX is accepted before another definition and refused as the last one of a file; and of two definitions of one name only the last is kept. Proved for all other modules in the supported notation.)", "quantifier": "all modules in the supported notation, all orders of their definitions and imports, all other files", "why_tests_cant": "A module has as many orders as permutations; tests fix one.", "anchors": ["asn-compiler/src/parser/asn/module.rs:parse_module", "asn-compiler/src/parser/asn/defs.rs:parse_definition", "asn-compiler/src/parser/asn/types/ioc.rs:parse_class"]}
{"id": "C135", "title": "How the modules are spread over files does not matter", "statement": "What the program generates depends on the modules that its files contain: one file with several modules gives the same as a file for each of them, in any order and any distribution.", "quantifier": "every two lists of files whose texts spell the same modules; every pair of texts joined to one, with any other files", "why_tests_cant": "A test compares one distribution with another for one schema; the claim is about every schema and every way to divide it.", "anchors": ["asn-compiler/src/bin/hampi-asn1c.rs", "asn-compiler/src/parser/mod.rs", "asn-compiler/src/compiler.rs: add_module"]}
{"id": "C136", "title": "Programs generated separately understand each other", "statement": "A sender and a receiver may each run the compiler on their own copy of a schema: in another layout, with modules in other files, with parts of types named, inlined or renamed, on another machine with other hash seeds. If both generated files compile, each type has one and the same codec on both sides, and every permitted value that one side encodes into octets is decoded by the other side to the same value.", "quantifier": "all pairs of sets of files that spell a proper schema and one that is the same written differently, all runs of the compiler on them, all types, all permitted values", "why_tests_cant": "Tests generate code once and talk to themselves; they compare no two runs, and a difference between runs depends on hash seeds and on the way through parser, resolver and generator that a particular way of writing takes.", "anchors": ["asn-compiler/src/bin/hampi-asn1c.rs", "asn-compiler/src/compiler.rs", "asn-compiler/src/generator/int.rs:Generator::generate", "codecs_derive/src/lib.rs", "codecs/src/aper/mod.rs:AperCodecData::into_bytes"]}
{"id": "C137", "title": "Decoding does no more than the message warrants", "statement": "How much a derived decoder does before it returns, whether it accepts the octets or refuses them, is at most proportional to the number of octets received, with a factor that depends on the type only. A peer cannot keep a receiver busy with a short message.", "quantifier": "all types of any nesting, all octets, accepted or refused", "why_tests_cant": "A test measures a few messages, mostly accepted ones; the claim is about every sequence of octets and every point at which decoding fails.", "anchors": ["codecs_derive/src/aper/seqof.rs: generate_aper_codec_for_asn_sequence_of", "codecs_derive/src/aper/seq.rs", "codecs_derive/src/aper/choice.rs", "codecs_derive/src/aper/open.rs", "examples/tests"]}
{"id": "C138", "title": "Errors of the tokenizer name the place", "statement": "When a text is refused while it is cut into tokens, the error names the line and column of the first place, after tokens and blank characters, where neither a token nor a blank character comes next; and there is an error exactly when there is such a place. (Violated for columns after a token over several lines.)", "quantifier": "all texts; all places where no token comes next", "why_tests_cant": "Unbounded texts; any mixture of tokens, comments and lines before the place.", "anchors": ["asn-compiler/src/tokenizer/mod.rs:tokenize", "asn-compiler/src/error.rs:TokenizeError"]}
{"id": "C139", "title": "A schema that was cut off is refused", "statement": "A text that was cut off inside of a module, at whatever character, is never accepted; when what is left of a text in the supported notation is accepted, then it is whole modules, and exactly these are returned. (Violated where END also stands in brackets: a range whose end point is in brackets that hold unbalanced brackets can be cut off after END and is another module then. Violated as well for a cut in the middle of a word that starts with END: a module with a type ENDED is cut off after these three letters.)", "quantifier": "all texts, all characters after which they may be cut off", "why_tests_cant": "the texts and the places where they may be cut off are unlimited; a test cuts a few", "anchors": ["asn-compiler/src/parser/int.rs:parse", "asn-compiler/src/parser/asn/module.rs:parse_module", "asn-compiler/src/tokenizer/mod.rs:tokenize"]}
{"id": "C140", "title": "Reading a text does not depend on what stands above it", "statement": "When a text follows another one on a new line, the tokenizer gives for it what it gives for it alone - the same tokens, or the same error - with the lines counted from the top of the whole, and before that the tokens of the text above, unchanged (up to a comment on its last line, which holds the final newline only when nothing follows).", "quantifier": "all pairs of texts, the first one made of tokens; all outcomes for the second", "why_tests_cant": "a test looks at a few pairs; the loop carries its position along, and every kind of token looks ahead for where it ends", "anchors": ["asn-compiler/src/tokenizer/mod.rs:tokenize", "asn-compiler/src/tokenizer/mod.rs:get_maybe_comment_token", "asn-compiler/src/tokenizer/mod.rs:get_string_token"]}
{"id": "C141", "title": "The compiler does not panic on a schema", "statement": "For every list of files, the compiler ends without a panic: a mistake in a schema is reported as an error. It is known of every panic what part of the schema brought it about.", "quantifier": "all lists of files, all orders in which the definitions and modules of a schema may be taken, all spellings of generated names", "why_tests_cant": "A test shows that one schema is compiled or refused. That nothing but a fixed list of things in a schema can make the compiler panic is a statement about every schema, through every function of the reader, resolver and generator.", "anchors": ["asn-compiler/src/resolver/asn/types/base/enumerated.rs", "asn-compiler/src/resolver/asn/types/constraints.rs", "asn-compiler/src/resolver/asn/values.rs", "asn-compiler/src/generator/asn/types/constructed/choice.rs", "asn-compiler/src/compiler.rs:Asn1Compiler::resolve_modules"]}
{"id": "C142", "title": "The stack does not change the result", "statement": "When the compiler comes to a result within some depth of nested calls, it can come to the same result when calls may nest deeper, and to no other. So the size of the stack decides whether the compiler comes to an end, but not what it says.", "quantifier": "all lists of files, all orders of definitions and modules, all pairs of depths", "why_tests_cant": "A test runs with one stack. That no depth changes the outcome is a statement about every pair of depths and every input.", "anchors": ["asn-compiler/src/compiler.rs:Asn1Compiler::resolve_modules", "asn-compiler/src/bin/hampi-asn1c.rs", "asn-compiler/src/resolver/asn/types/int.rs"]}
{"id": "C143", "title": "The compiler ends", "statement": "For every list of files, the compiler comes to an end: it reads them, resolves the modules and generates the code in a bounded number of steps.", "quantifier": "all lists of files, all orders of definitions and modules", "why_tests_cant": "No test waits for ever, and none shows that there is a bound for every input.", "anchors": ["asn-compiler/src/bin/hampi-asn1c.rs", "asn-compiler/src/compiler.rs:Asn1Compiler::resolve_modules", "asn-compiler/src/parser/int.rs:parse", "asn-compiler/src/resolver/asn/types/int.rs"]}
{"id": "C144", "title": "What the derive macro makes of an item", "statement": "For every Rust item, written by hand or generated, the derive macro makes exactly the implementation that the entries of its attributes ask for, of which the last of a name counts: the ASN.1 type, the bounds, the extensibility, the fields with their places in the bitmap, the variants with their keys. It panics exactly if a bound is no number of 128 bits or a CHOICE lacks a bound, and refuses every other item with an error.", "quantifier": "all Rust items: all attributes, all kinds of data, all fields and variants", "why_tests_cant": "The items users write by hand are without limit; tests derive codecs for a few well-formed ones, and an item that must be refused cannot stand in a test that has to compile.", "anchors": ["codecs_derive/src/lib.rs:derive", "codecs_derive/src/attrs.rs:parse_ty_meta_as_codec_params", "codecs_derive/src/attrs.rs:parse_fld_meta_as_codec_params", "codecs_derive/src/aper/mod.rs:generate_codec", "codecs_derive/src/utils.rs"]}
{"id": "C145", "title": "Names in generated code are identifiers", "statement": "All names in the generated code, of types, fields, variants and constants, are identifiers of Rust, so that making them never panics: names reach the generator only as an ASCII letter followed by letters, digits and hyphens, also through parameterized types, objects and object sets.", "quantifier": "every set of files the program generates code from, every order of the hash tables", "why_tests_cant": "The names pass through the tokenizer, the parser, the replacement of parameters, the reading of objects and the resolver; a test sees the names of one schema.", "anchors": ["asn-compiler/src/generator/int.rs: to_type_ident, to_value_ident, capitalize_first, get_unique_name", "asn-compiler/src/parser/asn/defs.rs: apply_params", "asn-compiler/src/tokenizer/mod.rs: get_identifier_or_keyword_token"]}
