{"id": "C01", "title": "Decoded values are SCALE-correct (soundness)", "statement": "Whenever decode_with_type succeeds for type id T at position p and leaves the position at q, the value it returns is one whose SCALE encoding, as the type registry describes type T (special types by their well-known fixed layout), is exactly the bytes data[p..q].", "quantifier": "all registries (including malformed and cyclic), all byte buffers, all start positions, all type ids, all hints", "why_tests_cant": "The claim ranges over every metadata registry and every byte string; tests fix a few chains and a few transactions.", "anchors": ["src/decoding_sci.rs:decode_with_type", "src/decoding_sci.rs:decode_fields", "src/decoding_sci.rs:decode_elements_set", "src/decoding_sci.rs:decode_variant", "src/decoding_sci.rs:decode_type_def_primitive"]}
{"id": "C02", "title": "Every valid encoding is decoded (completeness)", "statement": "If data at position p starts with a SCALE encoding of a value v of type T, then decode_with_type succeeds, returns v and moves the position exactly past that encoding, whatever follows it. One condition on the registry: the elements of arrays of length zero do not contain themselves without an enum or a vector in between (other types may). It cannot be dropped: a struct with a field [Self; 0] is rejected where it is nested.", "quantifier": "all registries where elements of zero-length arrays do not contain themselves directly, all type ids, all values of the type, all encodings, all trailing bytes", "why_tests_cant": "Infinite family of registries and nested values; only an induction over the encoding covers them.", "anchors": ["src/decoding_sci.rs:decode_with_type", "src/decoding_sci.rs:husk_type"]}
{"id": "C03", "title": "Decoding terminates on any registry", "statement": "decode_with_type, husk_type and every function built on them stop on every input, including self-referential metadata: a registry cycle that consumes no data is reported as CyclicMetadata instead of looping or overflowing, and recursion depth is bounded by (unread bytes)*(number of types+1)+number of types+1.", "quantifier": "all registries (including cyclic ones), all buffers, all positions", "why_tests_cant": "Non-termination cannot be observed by a finite test run over sampled metadata.", "anchors": ["src/decoding_sci.rs:decode_with_type", "src/decoding_sci.rs:husk_type", "src/propagated.rs:Checker::check_id"]}
{"id": "C04", "title": "Decoding never panics", "statement": "No call of decode_with_type can reach a panic (array conversion expects, indexing, unwraps): the outcome is always a value or a ParserError.", "quantifier": "all registries, buffers, positions, hints; 64-bit targets", "why_tests_cant": "Absence of panics needs all inputs.", "anchors": ["src/decoding_sci.rs:decode_with_type", "src/special_types.rs:StableLength"]}
{"id": "C05", "title": "Position only moves forward and stays inside the data", "statement": "After a successful decode the new position q satisfies p <= q <= data length, so the parser never reads or reports past the end and never moves backwards.", "quantifier": "all registries, buffers, positions, types", "why_tests_cant": "Universally quantified over metadata and data.", "anchors": ["src/decoding_sci.rs:decode_with_type"]}
{"id": "C06", "title": "Decoding depends only on the bytes it consumes (locality and shift invariance)", "statement": "If decoding succeeds on data[p..q], then decoding the same type in any other buffer that holds the same bytes at any other position succeeds with the identical result and consumes the same number of bytes; bytes before p and after q have no influence.", "quantifier": "all pairs of buffers agreeing on the consumed range, all offsets, all registries", "why_tests_cant": "Relational (two-run) property over unbounded inputs.", "anchors": ["src/decoding_sci.rs:decode_with_type", "src/compacts.rs:find_compact"]}
{"id": "C07", "title": "Truncated data is never accepted", "statement": "If decoding consumes n bytes, decoding the same type from any strictly shorter prefix of those n bytes fails: a cut-off message can not be shown as a shorter valid one.", "quantifier": "all registries, types, buffers and all truncation points", "why_tests_cant": "Needs all truncation points of all messages of all types.", "anchors": ["src/decoding_sci.rs:decode_with_type"]}
{"id": "C08", "title": "Display hints never change what is decoded", "statement": "Hints (from signed-extension identifiers, field names, type names, paths) influence only the specialty label: with any two starting hints, decoding fails with the same error or succeeds with the same value and the same position.", "quantifier": "all pairs of hints, all registries, buffers, positions, types", "why_tests_cant": "Two-run property over all metadata and data.", "anchors": ["src/propagated.rs:SpecialtySet", "src/special_indicators.rs:Hint", "src/decoding_sci.rs:decode_with_type"]}
{"id": "C09", "title": "Failing external memory never corrupts the result", "statement": "If some reads of the external memory fail (a failed address range keeps failing), then the outcome is the memory's own error, and only if some bytes of the data do fail, or exactly the outcome (value or error) that reliable memory gives; failed reads never turn into different values.", "quantifier": "all sets of failing reads, all registries, buffers, types", "why_tests_cant": "Fault patterns are an unbounded set of crash points.", "anchors": ["src/decoding_sci.rs:decode_with_type", "src/special_indicators.rs:SpecialtyTypeChecked::from_type"]}
{"id": "C10", "title": "decode_all_as_type uses every byte or fails", "statement": "decode_all_as_type succeeds exactly when decode_with_type succeeds from position 0 and ends at the data length; any surplus byte yields SomeDataNotUsedBlob with the first unused position.", "quantifier": "all registries, types and buffers", "why_tests_cant": "Ranges over all blobs.", "anchors": ["src/lib.rs:decode_all_as_type"]}
{"id": "C11", "title": "Compact integers: round trip", "statement": "For every unsigned width (u8..u128) and every value of that width, get_compact reads back the value from its SCALE compact encoding placed anywhere in a buffer and moves the position exactly past the encoding.", "quantifier": "all values of all widths, all surrounding bytes, all positions", "why_tests_cant": "2^128 values times all contexts.", "anchors": ["src/compacts.rs:find_compact", "src/compacts.rs:get_compact"]}
{"id": "C12", "title": "Compact integers: only canonical encodings accepted", "statement": "If find_compact/get_compact succeeds, the consumed bytes are the unique canonical compact encoding of the returned value and the value fits the requested width; non-minimal encodings and out-of-range values are rejected.", "quantifier": "all byte buffers, positions and widths", "why_tests_cant": "All byte strings.", "anchors": ["src/compacts.rs:find_compact"]}
{"id": "C13", "title": "find_compact error behaviour and purity", "statement": "find_compact never moves the position; it reports OutOfRange exactly when the position is past the data end, and NoCompact when no canonical compact starts there; the brute-force search over growing slices finds the shortest and only slice that decodes.", "quantifier": "all buffers, positions, widths", "why_tests_cant": "All buffers and positions.", "anchors": ["src/compacts.rs:find_compact"]}
{"id": "C14", "title": "Era decoding: exact inverse of encoding", "statement": "Decoding an encoded valid Era gives the Era back; conversely any bytes accepted as an Era re-encode to the same bytes; one byte is consumed for the immortal era and two for a mortal one.", "quantifier": "all valid eras and all byte strings", "why_tests_cant": "Exhaustive in period, phase and surrounding bytes.", "anchors": ["src/additional_types.rs:Era", "src/special_types.rs:special_case_era"]}
{"id": "C15", "title": "Era values are well-formed", "statement": "A decoded mortal era always has a period that is a power of two between 4 and 65536 and a phase smaller than the period that is a multiple of the quantize factor.", "quantifier": "all byte strings", "why_tests_cant": "All inputs.", "anchors": ["src/additional_types.rs:Era::decode"]}
{"id": "C16", "title": "Decoded integers are in range of their type", "statement": "An unsigned integer reported as u8/u16/u32/u64/u128 is below 2^width, a signed one lies in the two's complement range, a PerThing never exceeds its maximum, fixed-size hashes/keys/signatures have exactly their length.", "quantifier": "all decodes on all registries and buffers, at every depth of the output", "why_tests_cant": "All inputs, all depths.", "anchors": ["src/special_types.rs"]}
{"id": "C17", "title": "Compact types may only hold compactable content", "statement": "Decoding through a Compact type succeeds only for unsigned integers up to u128, PerThing types, and single-field wrappers of these (or the empty struct/tuple); compact of bool, char, str, signed or 256-bit integers, hashes, keys, enums, arrays, bit sequences, nested compacts, multi-field structs/tuples is rejected with UnexpectedCompactInsides naming the compact type. A compact of a vector is rejected so, too, once the length of the vector is read (or with the error of reading it).", "quantifier": "all registries and buffers", "why_tests_cant": "All registries.", "anchors": ["src/propagated.rs:SpecialtySet::reject_compact", "src/special_types.rs:CheckCompact"]}
{"id": "C18", "title": "Enum decoding picks the first variant with the encoded index", "statement": "pick_variant returns the first variant whose index equals the byte at the position, and fails with UnexpectedEnumVariant when none has it; variant order in metadata does not matter when indices are distinct.", "quantifier": "all variant lists, buffers, positions", "why_tests_cant": "All variant lists.", "anchors": ["src/decoding_sci.rs:pick_variant", "src/decoding_sci.rs:decode_variant"]}
{"id": "C19", "title": "Sequence collection is lossless", "statement": "Re-arranging a decoded list into a typed sequence (u8..u128, Vec<u8>) keeps every element, in order, with nothing added: the collected sequence denotes the same list of values as the raw one.", "quantifier": "all lists of parsed elements", "why_tests_cant": "All lists.", "anchors": ["src/special_types.rs:wrap_sequence", "src/special_types.rs:Collectable"]}
{"id": "C20", "title": "Bit sequences: slice length and bits", "statement": "For every bit store (u8, u16, u32, u64) and bit order, decoding a bit sequence consumes exactly the compact length prefix plus ceil(bits/store bits) stores, and returns exactly `bits` bits, each equal to the corresponding bit of the encoded stores (64-bit targets).", "quantifier": "all buffers, positions, bit lengths, stores, orders", "why_tests_cant": "All lengths and contents.", "anchors": ["src/decoding_sci.rs:BitVecPositions::new", "src/decoding_sci.rs:decode_type_def_bit_sequence"]}
{"id": "C21", "title": "32-bit replacement decoder of u64 bit sequences", "statement": "On 32-bit targets the replacement decoder for u64-backed bit sequences accepts only encoded bit sequences and moves to their end. It returns the bits the 64-bit decoder returns exactly if the last element does not start (in bit order) with 32 zero bits, or holds at most 32 bits of the sequence and, for Msb0, the corresponding padding bits of its second half are zero. If the last element starts with 32 zero bits and holds more than 32 bits of the sequence, it panics; for Msb0 with set padding bits it returns wrong bits. (The naive expectation, equality for all data, is refuted by witnesses.)", "quantifier": "all buffers holding a u64-backed bit sequence", "why_tests_cant": "All bit patterns; existing tests only cover lucky ones.", "anchors": ["src/decoding_sci.rs:reform_vec_lsb0", "src/decoding_sci.rs:reform_vec_msb0", "src/decoding_sci.rs:patch_bitvec_u64"]}
{"id": "C22", "title": "Signable transaction marking partitions the data", "statement": "MarkedData::mark succeeds only if the data is a compact call length followed by that many call bytes and the extensions; the call region and the extension region are adjacent, inside the data, and cover everything after the prefix.", "quantifier": "all buffers", "why_tests_cant": "All buffers.", "anchors": ["src/lib.rs:MarkedData", "src/lib.rs:MarkedData::mark"]}
{"id": "C23", "title": "Call decoding is confined to the declared call bytes and uses all of them", "statement": "decode_as_call succeeds only when the call consumes exactly the declared call region; its result does not depend on the extension bytes; otherwise SomeDataNotUsedCall or another error is returned.", "quantifier": "all marked data and metadata", "why_tests_cant": "Two-run property over all data.", "anchors": ["src/decoding_sci.rs:decode_as_call", "src/lib.rs:MarkedData::data_no_extensions"]}
{"id": "C24", "title": "A decoded call always is a call of the metadata's call type", "statement": "decode_as_call returns only pallet/call pairs selected by the first two call bytes from the call type enums of the metadata; if the type does not have the pallet-call pattern NotACall (or a parser error) results.", "quantifier": "all metadata and data", "why_tests_cant": "All metadata.", "anchors": ["src/decoding_sci.rs:decode_as_call_unmarked"]}
{"id": "C25", "title": "Extensions are decoded completely and in metadata order", "statement": "decode_extensions (and decode_extensions_unmarked) decodes first the `ty` of every signed extension in order, then the `additional_signed` of every signed extension in order, contiguous from the extension start, and fails unless the last one ends exactly at the end of data.", "quantifier": "all metadata, all data", "why_tests_cant": "All metadata and data.", "anchors": ["src/decoding_sci_ext.rs:decode_extensions_unmarked", "src/lib.rs:parse_transaction"]}
{"id": "C26", "title": "Spec version must match the metadata", "statement": "Extensions decode successfully only if exactly one spec version is present in them and its printed value equals the version in the metadata's Version constant.", "quantifier": "all metadata, all extension data", "why_tests_cant": "All metadata and data.", "anchors": ["src/decoding_sci_ext.rs:ExtensionChecks", "src/decoding_sci_ext.rs:decode_extensions_unmarked"]}
{"id": "C27", "title": "Genesis hash must be present once and match", "statement": "Extensions decode successfully only if exactly one genesis hash is present; if the caller supplies the expected genesis hash, it must be equal to it.", "quantifier": "all metadata, data, optional expected hashes", "why_tests_cant": "All metadata and data.", "anchors": ["src/decoding_sci_ext.rs"]}
{"id": "C28", "title": "Immortal era implies block hash equals genesis hash", "statement": "Extensions decode successfully only if there is at most one era and at most one block hash; and when the era is immortal and a block hash is present, the block hash equals the genesis hash.", "quantifier": "all metadata and data", "why_tests_cant": "All metadata and data.", "anchors": ["src/decoding_sci_ext.rs"]}
{"id": "C29", "title": "A parsed transaction accounts for every byte of the signed payload", "statement": "If parse_transaction succeeds for both call and extensions, prefix, call and extension regions are disjoint, consecutive and together are the whole input: no byte of the signed payload is left undisplayed.", "quantifier": "all metadata and payloads", "why_tests_cant": "All payloads.", "anchors": ["src/lib.rs:parse_transaction", "src/lib.rs:parse_transaction_unmarked"]}
{"id": "C30", "title": "Unchecked extrinsic framing", "statement": "decode_as_unchecked_extrinsic accepts only data whose compact length prefix equals the number of remaining bytes and whose version byte (lower 7 bits) equals the metadata's extrinsic version; the top bit alone selects the signed or unsigned form.", "quantifier": "all metadata and data", "why_tests_cant": "All data.", "anchors": ["src/unchecked_extrinsic.rs:decode_as_unchecked_extrinsic"]}
{"id": "C31", "title": "Unchecked extrinsic: bytes after the call are ignored", "statement": "A user may expect, from the crate's rule that all provided bytes must be used, that decode_as_unchecked_extrinsic fails if bytes are left over after the call. It does not: for every accepted extrinsic and any bytes, appending the bytes and adjusting the length prefix is accepted with the same result; only the length prefix, the version byte and the address, signature, extra and call parts are constrained.", "quantifier": "all metadata and data", "why_tests_cant": "All data.", "anchors": ["src/unchecked_extrinsic.rs:decode_as_unchecked_extrinsic", "src/lib.rs"]}
{"id": "C32", "title": "Storage keys are consumed completely", "statement": "decode_as_storage_entry succeeds only if the key consists of the 32 prefix bytes followed by exactly the hashed key parts the entry's hashers describe, and the value is consumed completely.", "quantifier": "all storage entry metadata, keys and values", "why_tests_cant": "All keys.", "anchors": ["src/storage_data.rs:decode_as_storage_entry", "src/storage_data.rs:process_storage_key"]}
{"id": "C33", "title": "Concatenated storage key hashes are verified", "statement": "For blake2_128_concat and twox_64_concat hashers the decoded key part is accepted only if the stored hash equals the hash of the key part's own bytes; for identity no hash is expected; opaque hashers return the stored hash bytes unchanged.", "quantifier": "all keys, hashers, hash functions", "why_tests_cant": "All keys and all hash functions.", "anchors": ["src/storage_data.rs"]}
{"id": "C34", "title": "Storage decoding never panics", "statement": "decode_as_storage_entry never reaches the panic of its internal expects, for any entry description (any numbers of hashers, any key type), as long as the memory holding the key does not fail; if external memory fails on the second read of a key part (done only for hashing) it does panic, which is shown by a witness.", "quantifier": "all entries, keys, values", "why_tests_cant": "All metadata.", "anchors": ["src/storage_data.rs"]}
{"id": "C35", "title": "Balance printing preserves the numeric value", "statement": "For every amount (u8..u128), every number of decimals 0..255 and unit, the printed decimal number multiplied by its metric prefix equals amount*10^-decimals exactly: no digit is lost, added or rounded.", "quantifier": "all 2^128 amounts, all 256 decimals", "why_tests_cant": "2^136 combinations.", "anchors": ["src/printing_balance.rs:convert_balance_pretty"]}
{"id": "C36", "title": "Balance printing never panics and keeps its form", "statement": "Printing a balance never overflows, never slices out of range and always selects a defined SI prefix. The text is a plain decimal whose digits are the digits of the amount with only zeros added or removed around them; the whole part has no leading zero, has at most three digits unless the prefix is the largest one, and is zero only for amount 0 or for the smallest prefix.", "quantifier": "all amounts, decimals", "why_tests_cant": "2^136 combinations.", "anchors": ["src/printing_balance.rs"]}
{"id": "C37", "title": "Cards show every decoded leaf, once and in order", "statement": "Flattening parsed data into cards keeps all decoded leaf values: the sequence of leaf payloads in the cards equals the left-to-right sequence of leaves in the parsed tree, nothing dropped, duplicated or reordered.", "quantifier": "all parsed data trees", "why_tests_cant": "All trees.", "anchors": ["src/cards.rs:ParsedData::card"]}
{"id": "C38", "title": "Card indentation reflects nesting", "statement": "The cards are the preorder listing of the tree of the data, and the indent of each card is the starting indent plus the depth of its node: the first card is at the starting indent, a card is at most one step deeper than the one before it, and changing the starting indent shifts all indents by the same amount.", "quantifier": "all parsed data trees, all starting indents", "why_tests_cant": "All trees.", "anchors": ["src/cards.rs"]}
{"id": "C39", "title": "Chain units are shown only where they are valid", "statement": "A balance-labelled integer is carded with decimals and units only inside the Balances and Staking pallets (or for a tip in extensions); in other pallets it is shown as a raw number; nested calls follow the pallet they belong to; an asset tip is never shown with chain units.", "quantifier": "all parsed trees, all pallet names, all specs", "why_tests_cant": "All trees.", "anchors": ["src/cards.rs:PALLETS_BALANCE_VALID", "src/cards.rs"]}
{"id": "C40", "title": "Field name has priority over type name in labelling", "statement": "A field called nonce, spec_version, spec_name, tx_version or transaction_version is labelled by its name whatever its type name; the type name (balances) is only consulted otherwise; the first label found on the way down sticks.", "quantifier": "all fields, all label chains", "why_tests_cant": "All strings.", "anchors": ["src/special_indicators.rs:Hint::from_field", "src/propagated.rs:Checker::update_for_field"]}
{"id": "C41", "title": "Labels do not leak across struct boundaries", "statement": "A label passed from above survives only through single-field structs/tuples and compacts; in multi-field structs or tuples, enum variants and sequence elements it is dropped, except the asset-tip label, which is kept through multi-field structs and tuples.", "quantifier": "all registries, data, hints", "why_tests_cant": "All registries.", "anchors": ["src/propagated.rs:SpecialtySet::forget_hint", "src/decoding_sci.rs:decode_fields", "src/decoding_sci.rs:husk_type"]}
{"id": "C42", "title": "Version constant lookup in metadata", "statement": "The spec name and version are taken from the Version constant of the System pallet, decoded completely, and only if it has exactly one spec name and one spec version; otherwise a specific error is returned.", "quantifier": "all metadata (V14 and V15)", "why_tests_cant": "All metadata.", "anchors": ["src/traits.rs:AsMetadata", "src/traits.rs:spec_name_version_from_runtime_version_data"]}
{"id": "C43", "title": "Extrinsic type parameters lookup", "statement": "For V14 metadata the Address, Call, Signature and Extra types of the extrinsic are those the registry lists under these parameter names for the extrinsic type, and a missing one is an error naming it.", "quantifier": "all V14 metadata", "why_tests_cant": "All metadata.", "anchors": ["src/traits.rs:AsCompleteMetadata"]}
{"id": "C44", "title": "Element type resolution is faithful", "statement": "husk_type strips only compacts and single-field structs from an element type: values of the stripped type have exactly the same encodings as values of the original type, and resolution fails on cyclic chains.", "quantifier": "all registries and type ids", "why_tests_cant": "All registries.", "anchors": ["src/decoding_sci.rs:husk_type"]}
{"id": "C45", "title": "A type id that is not in the registry is an error", "statement": "Decoding never fabricates data for unknown type ids: if a needed type id can not be resolved, the result is an error.", "quantifier": "all registries, ids, data", "why_tests_cant": "All registries.", "anchors": ["src/traits.rs:ResolveType", "src/decoding_sci.rs:decode_with_type"]}
{"id": "C46", "title": "Output size is not bounded by input size (zero-size elements)", "statement": "A user may expect the output to be bounded by the input length. FALSE: a vector of zero-size elements yields as many elements as its 1..5-byte length prefix says; proved as a negative result with the exact count.", "quantifier": "all element counts below 2^32", "why_tests_cant": "Resource blow-up over all counts.", "anchors": ["src/decoding_sci.rs:decode_elements_set"]}
{"id": "C47", "title": "Shown cards: lines, and what the text tells", "statement": "The text of a card has one line plus one for every line break in the texts it shows as they are, so it is a single line exactly if these have no line break; then the shown text of a list of cards determines all indents, card types and payloads. Without that condition the expectation fails: there are two different values of one type shown as the same text. show_with_docs prints first what show prints and nothing more if there is no type information.", "quantifier": "all cards", "why_tests_cant": "All texts.", "anchors": ["src/cards.rs:ExtendedCard::show"]}
{"id": "C48", "title": "Decoded tree carries exactly the registry's names, docs, paths and labels", "statement": "Whatever is decoded, every node of the tree is annotated by the rules: field names, type names and docs are those of the registry in order, info lists are the docs and paths of the types passed on the way (compacts and element wrappers included), variant and pallet names are those of variants of the type, and every specialty label follows from the first label met on the way down.", "quantifier": "all registries, types, buffers, positions, starting hints", "why_tests_cant": "Must hold for every type nesting.", "anchors": ["src/decoding_sci.rs:decode_with_type", "src/decoding_sci.rs:husk_type", "src/propagated.rs:Propagated::add_info", "src/cards.rs:Info::from_ty"]}
{"id": "C49", "title": "Errors tell the truth", "statement": "When decoding a type at a position fails, what the error says is true: 'out of range' names a position past the end; 'too short' names a position in the data with fewer bytes left than asked; a memory error means the memory failed on bytes of the data; 'no compact' and 'type failure' name a position, not before the one asked for and in the data, where there is no encoding of a compact or of the named type; 'unexpected enum variant' names a byte that is the index of no variant of some enum of the registry; 'cyclic metadata' names a type that does contain itself; 'unexpected compact insides' a compact type in which no value can be; 'not a bit order / store type' a bit sequence whose order / store is not one; other registry errors are the registry's own answers (for a portable registry: an id out of range). 'Some data not used' names the end of what was decoded, before the end of the data.", "quantifier": "all registries, types, data, positions, fault patterns", "why_tests_cant": "All registries and data; negative facts (no encoding at this position) range over all values.", "anchors": ["src/error.rs", "src/decoding_sci.rs:decode_with_type", "src/compacts.rs:find_compact", "src/propagated.rs:Checker::check_id"]}
{"id": "C50", "title": "One value, one encoding (no malleability)", "statement": "If two byte strings decode, as the same type, to the same value, they are the same bytes, provided the value leaves no freedom: its bit sequences fill their last store element and its parts of one (Percent, Perbill, ...) are below one, and the registry names the variants of an enum apart and has one variant per signature kind. So two different payloads never decode to the same firm value. Each of the provisos is needed.", "quantifier": "all registries with distinct variant names and signature variants, types, pairs of byte strings, positions and hints, all firm values", "why_tests_cant": "Ranges over pairs of arbitrary inputs and arbitrary type registries.", "anchors": ["src/decoding_sci.rs:decode_with_type", "src/compacts.rs:find_compact", "src/decoding_sci.rs:decode_bit_sequence", "src/special_types.rs"]}
{"id": "C51", "title": "Only the content of the metadata matters", "statement": "Two metadata that give the same answers to the questions of AsMetadata/AsCompleteMetadata (types, spec name and version, call type, signed extensions, extrinsic parameters and version) decode every transaction and every unchecked extrinsic alike, whatever their version and error type. In particular V14 metadata, and V15 metadata of the same runtime, do.", "quantifier": "all pairs of metadata with the same answers, all data, positions and expected genesis hashes", "why_tests_cant": "Ranges over pairs of arbitrary metadata and all inputs.", "anchors": ["src/traits.rs:AsMetadata", "src/traits.rs:AsCompleteMetadata", "src/lib.rs:parse_transaction", "src/lib.rs:parse_transaction_unmarked", "src/unchecked_extrinsic.rs:decode_as_unchecked_extrinsic"]}
{"id": "C52", "title": "What is shown determines what is signed", "statement": "Take one metadata (variant names distinct in every enum) and printers that print different keys and different bit lists differently. If two successful decodings of the same type, or two parsed transactions, are shown with the same card lines (labels and payloads; indents, docs and paths not needed), then all decoded data are the same: values, names, docs, labels. The same holds for the text returned by show, if no text inside has a line break. If in addition the values leave no freedom to the encoding (C50), the two payloads are the same bytes: no second payload can hide behind the same display.", "quantifier": "all metadata with distinct variant names, all pairs of inputs and positions, all chain specs with at most 255 decimals, all faithful printers", "why_tests_cant": "Injectivity over all pairs of payloads and all types; a collision between two displays cannot be excluded by trying pairs.", "anchors": ["src/cards.rs:ParsedData::card", "src/cards.rs:ExtendedCard::show", "src/cards.rs:ExtendedData::show", "src/lib.rs:parse_transaction", "src/lib.rs:parse_transaction_unmarked", "src/lib.rs:TransactionParsed::card"]}
{"id": "C53", "title": "Shortened metadata tell the same", "statement": "Take metadata R (in every enum at most one variant per index; array types have no path) and shortened metadata S: types may be missing, enums may miss variants but keep at least one, everything else is as in R. Whatever decodes successfully with S decodes successfully with R, with the identical outcome (values, names, docs, labels, positions): types, calls, extensions, whole transactions, unchecked extrinsics, storage entries. So a signing device that holds only the part of the metadata needed for one transaction shows what the full metadata would show; leaving something out can only lead to an error. An enum emptied of its variants is the exception: it is read as one without variants, from no data.", "quantifier": "all metadata pairs S, R with S a shortening of R, all data, positions, expected genesis hashes, hash functions and storage entries", "why_tests_cant": "Ranges over all ways to shorten all registries, and all inputs; missing types are also asked for by look-ahead code (husking, signature recognition) whose errors are swallowed, so that an answer could silently change.", "anchors": ["src/traits.rs:ResolveType", "src/decoding_sci.rs:decode_with_type", "src/decoding_sci.rs:husk_type", "src/special_indicators.rs", "src/lib.rs:parse_transaction", "src/lib.rs:parse_transaction_unmarked", "src/unchecked_extrinsic.rs:decode_as_unchecked_extrinsic", "src/storage_data.rs:decode_as_storage_entry"]}
{"id": "C54", "title": "The forms of a call agree", "statement": "A payload with a length prefix is parsed by parse_transaction, with a call, exactly if parse_transaction_unmarked parses the payload without the prefix and the call has the length the prefix says; call and extensions are then identical. Every payload accepted without prefix has a prefixed form accepted with the same outcome. The call reported for an unchecked extrinsic is what decode_as_call_unmarked reports at a position of the extrinsic, and a decoded call put into an unsigned extrinsic is decoded as the same call; with V14 and V15 metadata the call type used by both ways is the same.", "quantifier": "all metadata, call bytes, extension bytes, positions, expected genesis hashes; all V14/V15 metadata", "why_tests_cant": "Relates four entry points on all inputs; the positions, the limits of the buffer and the order of decoding differ between them.", "anchors": ["src/lib.rs:parse_transaction", "src/lib.rs:parse_transaction_unmarked", "src/lib.rs:MarkedData", "src/decoding_sci.rs:decode_as_call", "src/decoding_sci.rs:decode_as_call_unmarked", "src/unchecked_extrinsic.rs:decode_as_unchecked_extrinsic"]}
{"id": "C55", "title": "How deep decoding nests", "statement": "Decoding any type at a position with u unread bytes, with a registry of t types, nests at most u*(t+1)+t+2 recursive calls, and the decoded data are at most that deep. There is no constant limit: for every n there are n+1 bytes, of a registry with one enum, that are decoded with more than n nested calls into data of depth n+1; so data from outside decide how much stack is used.", "quantifier": "all registries, data, positions, types, contexts; all n for the lower bound", "why_tests_cant": "The bound ranges over all registries and inputs, including cyclic and malicious ones; the lower bound is about all n.", "anchors": ["src/decoding_sci.rs:decode_with_type", "src/propagated.rs:Checker::check_id", "src/propagated.rs:Checker::drop_cycle_check"]}
{"id": "C56", "title": "Errors of transactions, extrinsics and storage entries are true", "statement": "Whatever parse_transaction, parse_transaction_unmarked, decode_as_call, decode_extensions, decode_as_unchecked_extrinsic and decode_as_storage_entry report as an error is so: a spec version, genesis hash, block hash or era reported as missing, doubled or wrong is missing, doubled or wrong in the decoded extensions, and a reported value is the one in the data; data reported as unused start right after what was completely decoded and are not empty; 'not a call' means that the data at the place hold a value of the call type of the metadata that is not a call; CutSignable means that the data are not a length-prefixed call with extensions, or memory failed; a reported hash mismatch is a key part with a wrong hash before it, made by a concatenating hasher of the entry; parsing errors are true (C49) of the part of the data they belong to; errors of the metadata are its own answers.", "quantifier": "all metadata, data, memories with faults, storage entries, hash functions, expected genesis hashes, and all error values", "why_tests_cant": "It is about every error that can be returned for any metadata and any data; tests check a few messages.", "anchors": ["src/lib.rs:parse_transaction", "src/lib.rs:parse_transaction_unmarked", "src/lib.rs:MarkedData::mark", "src/decoding_sci.rs:decode_as_call", "src/decoding_sci_ext.rs:decode_extensions_unmarked", "src/decoding_sci_ext.rs:check_extensions", "src/unchecked_extrinsic.rs:decode_as_unchecked_extrinsic", "src/storage_data.rs:decode_as_storage_entry", "src/error.rs:SignableError", "src/error.rs:StorageError", "src/error.rs:UncheckedExtrinsicError"]}
{"id": "C57", "title": "Memory that fails now and then never makes a wrong value", "statement": "The external memory is used through a mutable handle; an access may fail at one time and succeed at another, and a failed access during recognition of calls, events and signatures is forgotten. Whatever the schedule of failures, decode_as_type_at_position and decode_all_as_type end with a value or a parser error, never a panic; a value comes with exactly the bytes between the two positions as its encoding under the registry (all the data, for decode_all_as_type), where only the choice of telling a call, event or signature as such or as the plain enum it is may depend on the failures. If the answers of the memory do not change, its passing state has no influence at all.", "quantifier": "all memories with arbitrary state and arbitrary (also adaptive) schedules of failing accesses, registries, data, types, positions", "why_tests_cant": "Schedules of failures are unboundedly many; a test injects a few.", "anchors": ["src/decoding_sci.rs:decode_with_type", "src/special_indicators.rs:SpecialtyTypeChecked::from_type", "src/special_indicators.rs:SignatureIndicator::from_field", "src/traits.rs:ResolveType", "src/lib.rs:decode_all_as_type"]}
{"id": "C58", "title": "Failures of the memory change nothing but labels", "statement": "If decoding succeeds on reliable memory, then on memory that fails now and then it stops with the memory's own error, or succeeds at the same end position with the same value, where some enums may be told as plain enums instead of as calls, events and signatures or the other way round; any other error means that decoding fails on reliable memory as well. Conversely, what is decoded from failing memory is decoded from reliable memory, to the same end position and the same value but for labels: failures never make bad data look good. Two successful runs on failing memories agree in the same sense. For a type in which no call, event or signature takes part the outcome, error or value with all annotations, is the one on reliable memory or the memory's own error. With no call, event or signature types in the registry the values are equal. Conditions on the registry: elements of zero-length arrays do not contain themselves directly, arrays and primitives have no names, no compacts of arrays. One exception: if the registry has pallets with an empty list of calls or events, nothing is claimed of results that contain the value of an enum without variants (Rust has no such values, so no valid data has one).", "quantifier": "all memories with arbitrary state and schedules of failing accesses, registries with the stated conditions, data, types, positions inside the data", "why_tests_cant": "It compares runs under all schedules of failures, for all registries and data.", "anchors": ["src/decoding_sci.rs:decode_with_type", "src/special_indicators.rs:SpecialtyTypeChecked::from_type", "src/lib.rs:decode_as_type_at_position", "src/lib.rs:decode_all_as_type"]}
{"id": "C59", "title": "Machine words: same outcomes on 32 and 64 bits, with and without overflow checks", "statement": "Positions and lengths are usize. Apart from bit sequences with u64 store, which have other code on 32-bit targets (C21, C67), whatever the width of usize (32 bits or more) and whether or not the program is compiled with overflow checks, decoding of types, unmarked transactions and storage entries never overflows: the outcome is that of exact arithmetic. For transactions and extrinsics with a length prefix the same holds on 64 bits always, and on 32 bits unless the prefix plus its own length exceeds the address space; then marking a transaction panics with overflow checks and reports CutSignable without, and decode_as_unchecked_extrinsic panics or reports an error that is not true of the data, but neither ever accepts what exact arithmetic rejects.", "quantifier": "all word sizes of 32 bits and more, wrapping or checked, memories, data (that leave 2^30 addresses free), registries, metadata, types, positions", "why_tests_cant": "Overflow depends on the target and on lengths of gigabytes; tests run on one 64-bit target.", "anchors": ["src/lib.rs:MarkedData::mark", "src/lib.rs:parse_transaction", "src/unchecked_extrinsic.rs:decode_as_unchecked_extrinsic", "src/storage_data.rs:decode_as_storage_entry", "src/decoding_sci.rs:decode_with_type"]}
{"id": "C60", "title": "Failing memory: transactions, extrinsics and storage entries are never shown wrong", "statement": "External memory may fail at any access, at one time and not at another. Still parse_transaction, parse_transaction_unmarked and decode_as_unchecked_extrinsic end with a result or an error of the crate, not with a panic (except for length prefixes that overflow a machine word with overflow checks on, C59), and decode_as_storage_entry panics at most if a hasher keeps the key beside the hash. What they return is there in the data: the framing, the call fields, every extension, every key part with its hash, the value. The checks on extensions hold for the bytes: the bytes of CheckSpecVersion are the spec version of the metadata, those of CheckGenesis the expected genesis hash, and for an immortal era those of CheckMortality are the genesis hash.", "quantifier": "all memories with arbitrary state and schedules of failing accesses, word sizes, metadata, registries, data, expected genesis hashes, storage entries", "why_tests_cant": "Failures may happen at any of the accesses of a run, in every combination, for every registry and data; a cold wallet must not sign on a wrong display.", "anchors": ["src/lib.rs:parse_transaction", "src/lib.rs:parse_transaction_unmarked", "src/lib.rs:MarkedData::mark", "src/decoding_sci_ext.rs:decode_extensions_unmarked", "src/unchecked_extrinsic.rs:decode_as_unchecked_extrinsic", "src/storage_data.rs:decode_as_storage_entry"]}
{"id": "C61", "title": "Failing memory: the same transaction as on reliable memory, or an error", "statement": "On memory that fails now and then, each of parse_transaction, parse_transaction_unmarked, decode_as_unchecked_extrinsic and decode_as_storage_entry gives the result that it gives on reliable memory, where only labels inside the values may differ, or an error that the failures can cause (the memory's own error; CutSignable or FormatNoCompact for the length prefix; NotACall or UnexpectedCallTy where the call type was not recognized; the panic of storage keys); or it fails in both cases. In particular whatever is accepted from failing memory is accepted from reliable memory, with the same call and the same extensions. Extensions in which no call, event or signature takes part are exactly the same, with all annotations, and so are their errors. Conditions on the registry and the exception (values of enums without variants) as in C58.", "quantifier": "all memories with arbitrary state and schedules of failing accesses, word sizes, metadata, registries with the stated conditions, data, storage entries", "why_tests_cant": "It compares runs under all schedules of failures with the run without failures, for all registries and data.", "anchors": ["src/lib.rs:parse_transaction", "src/lib.rs:parse_transaction_unmarked", "src/decoding_sci.rs:decode_as_call", "src/decoding_sci_ext.rs:decode_extensions_unmarked", "src/unchecked_extrinsic.rs:decode_as_unchecked_extrinsic", "src/storage_data.rs:decode_as_storage_entry"]}
{"id": "C62", "title": "Only the types that are reached count, not their numbers", "statement": "What is decoded as a type depends only on what the registry says of the types that can be reached from it (the type itself, parts of types that are not known by their path, elements of arrays): with two registries that agree on those, every input gives the identical outcome, value or error. And the numbers of types do not matter: if the reached types are renumbered without merging two of them, the outcome is the identical value with the identical annotations, or the identical error with the type numbers in it renumbered. The same holds for calls, extensions, marked and unmarked transactions, unchecked extrinsics and storage entries (where the type numbers named by hashed keys are renumbered), and for V14 and V15 metadata renumbered as a whole.", "quantifier": "all pairs of registries and all injective renumberings of the reached types, all data (also with failing memory), positions, expected genesis hashes, hash functions and storage entries", "why_tests_cant": "Ranges over all registries and all ways to renumber, reorder, drop or add unrelated types; the code keeps type numbers in the cycle check, in the compact marker, in errors and in look-ahead code whose errors are swallowed, any of which could make an outcome depend on numbers or on unrelated types.", "anchors": ["src/traits.rs:ResolveType", "src/propagated.rs:Checker", "src/decoding_sci.rs:decode_with_type", "src/decoding_sci.rs:husk_type", "src/special_indicators.rs", "src/lib.rs:parse_transaction", "src/lib.rs:parse_transaction_unmarked", "src/unchecked_extrinsic.rs:decode_as_unchecked_extrinsic", "src/storage_data.rs:decode_as_storage_entry"]}
{"id": "C63", "title": "The position a failing call leaves behind", "statement": "decode_as_type_at_position, decode_as_call_unmarked and decode_extensions_unmarked take the position as &mut, so the caller sees it after an error too. Whatever the outcome, the position has not moved back, and from a position in the data it does not move past the end. After an error it stands at the first byte of the item that could not be read, and the error names that position: for a wrong enum index, a missing compact, a wrong bool, char, text, era, per-thing, for data that ends too early (for a text whose length is there, the error names the first byte of the text, the position stays at the length). Only a bit vector longer than the codec accepts is passed before it is refused. For calls, an error of the metadata leaves the position at the start, and NotACall after the value that was read; for extensions, SomeDataNotUsedExtensions names the position, and all errors about contents leave it at the end of the data. After a success of decode_extensions_unmarked it is at the end of the data.", "quantifier": "all registries, metadata, data (also with failing reads), start positions, types and expected genesis hashes", "why_tests_cant": "The failing item may be anywhere in a nested type; every function on the way could have moved the position too early or too late, and tests look at results, not at the position after an error.", "anchors": ["src/lib.rs:decode_as_type_at_position", "src/decoding_sci.rs:decode_as_call_unmarked", "src/decoding_sci.rs:decode_with_type", "src/decoding_sci.rs:decode_variant", "src/decoding_sci.rs:into_bitvec_decode", "src/decoding_sci_ext.rs:decode_extensions_unmarked", "src/compacts.rs:get_compact", "src/special_indicators.rs:SpecialtyTypeChecked::from_type"]}
{"id": "C64", "title": "The text of an error tells the error", "statement": "Errors implement Display. Two errors of the same type with equal texts are the same error: the same case, position, type id, byte, hash and version. This holds outright for errors of extensions lists, of metadata structure and of the types registry, and for parser errors other than buffer errors; for errors with a buffer error inside it holds when the texts of buffer errors (made by another crate) are not texts of other parser errors, and for errors of signable transactions when the apparent spec version is written as a number - which is so for every error returned by parse_transaction and parse_transaction_unmarked and for every error of the call inside of a parsed transaction.", "quantifier": "all pairs of errors; all pairs of runs of parse_transaction and parse_transaction_unmarked, on any metadata, data and expected genesis hashes; all texts of external errors", "why_tests_cant": "There are infinitely many pairs of errors, with arbitrary numbers, strings and hashes spliced into the texts.", "anchors": ["src/error.rs:SignableError::error_text", "src/error.rs:StorageError::error_text", "src/error.rs:ParserError::error_text", "src/error.rs:RegistryError::error_text", "src/error.rs:RegistryInternalError::error_text", "src/error.rs:ExtensionsError::error_text", "src/error.rs:MetaStructureErrorV14::error_text", "src/error.rs:MetaVersionErrorPallets::error_text", "src/error.rs:UncheckedExtrinsicError::error_text"]}
{"id": "C65", "title": "The outcome is at most proportional to the input", "statement": "If no type of the registry contains itself without an enum or a vector in between, and elements of vectors take at least one byte, then the size of a decoded value - values, texts of names and docs, hashes, bits - is at most K * (1 + 2 * n) for n bytes consumed, where K is the size of what the largest type, or variant of an enum, shows (its own texts and those of its parts down to the next enum or vector). Transactions with m signed extensions, unchecked extrinsics, and storage entries are bounded likewise, and so is the number of cards made of them. The assumption on vectors is needed (C46); both assumptions can be checked for a given registry and hold of the metadata in the repository.", "quantifier": "all registries meeting the assumptions, all types, positions and data; all metadata; all transactions, extrinsics, storage keys and values", "why_tests_cant": "A bound on the size for all inputs; hostile inputs are those nobody has thought of.", "anchors": ["src/decoding_sci.rs:decode_with_type", "src/decoding_sci.rs:decode_elements_set", "src/lib.rs:parse_transaction", "src/lib.rs:parse_transaction_unmarked", "src/lib.rs:decode_as_type_at_position", "src/lib.rs:decode_all_as_type", "src/unchecked_extrinsic.rs:decode_as_unchecked_extrinsic", "src/storage_data.rs:decode_as_storage_entry", "src/cards.rs:ExtendedData::card"]}
{"id": "C66", "title": "The cost of memory accesses is at most proportional to the input, whatever fails", "statement": "Count one for every access to the external memory (a read of a slice or a resolution of a type), and one for every byte handed over. If no type of the registry contains itself without an enum or a vector in between, and elements of vectors take at least one byte, then decoding a value costs at most K * (1 + 2 * n), where n is the number of bytes after the position (the number of bytes consumed, if the outcome is a value), and K depends on the registry only. This holds in every state of the memory, whichever accesses fail, and also if the outcome is an error. Transactions, calls and extensions, unchecked extrinsics and storage entries are bounded likewise. The assumption on vectors is needed.", "quantifier": "all registries meeting the assumptions, all types, positions and data; all metadata; all memories, states of the memory and patterns of failing accesses; all outcomes, errors included", "why_tests_cant": "A bound on the work for all inputs and all failures; a hostile input that makes a device spend unbounded time in external memory is one nobody has tried.", "anchors": ["src/decoding_sci.rs:decode_with_type", "src/decoding_sci.rs:decode_elements_set", "src/decoding_sci.rs:pick_variant", "src/special_indicators.rs:SpecialtyTypeHinted", "src/special_types.rs:special_case_era", "src/compacts.rs:find_compact", "src/propagated.rs:Checker", "src/lib.rs:parse_transaction", "src/lib.rs:parse_transaction_unmarked", "src/lib.rs:decode_all_as_type", "src/unchecked_extrinsic.rs:decode_as_unchecked_extrinsic", "src/storage_data.rs:decode_as_storage_entry"]}
{"id": "C67", "title": "On 32-bit targets the outcome is that of 64-bit targets, or a panic", "statement": "The crate has other code for targets with 32-bit pointers: bit sequences with u64 store. If the metadata has no such type, decode_as_type_at_position, decode_all_as_type, parse_transaction, parse_transaction_unmarked, decode_as_unchecked_extrinsic and decode_as_storage_entry have the same outcome on 32-bit and on 64-bit targets (for data below 64 MiB; longer data can at worst be refused with an error). If it has such types but none with order Msb0, the outcome is the same or a panic: whatever a 32-bit program returns, the 64-bit program returns, also if the external memory fails. With order Msb0 a 32-bit program may return another value, and with order Lsb0 it may panic on a valid value.", "quantifier": "all registries, metadata, types, positions and data; for values also all memories that fail on some accesses", "why_tests_cant": "The tests run on 64-bit targets; the 32-bit code is tested on four bit sequences and never as part of the decoder. That nothing else changes is a claim about all types and data.", "anchors": ["src/decoding_sci.rs:decode_type_def_bit_sequence", "src/decoding_sci.rs:patch_bitvec_u64", "src/decoding_sci.rs:decode_with_type", "src/lib.rs:parse_transaction", "src/lib.rs:decode_all_as_type", "src/unchecked_extrinsic.rs:decode_as_unchecked_extrinsic", "src/storage_data.rs:decode_as_storage_entry"]}
{"id": "C68", "title": "Broken data are told apart from incomplete data", "statement": "When data come in pieces, the error tells whether waiting makes sense. If decode_as_type_at_position fails on the data present and the error does not blame their end (DataTooShort at a position in the data, or NoCompact where all that is left is the beginning of a valid compact number), then it fails with the same error whatever data are appended; the same for decode_all_as_type and decode_as_call_unmarked. DataTooShort {position, minimal_length} is honest about what is needed: with fewer bytes than position + minimal_length the same error comes again, and with that many it does not. Conversely the beginning of good data is never reported as broken: if the complete data decode up to some position, then every shorter beginning gives an error that blames the end and asks only for bytes before that position. DataTooShort is the only error of the kind: OutOfRange is never returned from a position in the data.", "quantifier": "all registries, types, positions, data and continuations of the data", "why_tests_cant": "Quantifies over all continuations of all data, for every type; tests cut a few encodings at a few places.", "anchors": ["src/lib.rs:decode_all_as_type", "src/decoding_sci.rs:decode_with_type", "src/decoding_sci.rs:decode_as_call_unmarked", "src/compacts.rs:find_compact", "src/error.rs:ParserError", "src/traits.rs:AddressableBuffer"]}
{"id": "C69", "title": "A shown address tells the key and the chain", "statement": "Account ids and public keys are shown as SS58 addresses made from the key and the base58 prefix in the chain specs. Whatever the checksum function, two addresses with the same text belong to the same key, and, for prefixes below 2^14, to the same prefix; only the low 14 bits of a prefix count. So cards with the same address stand for the same key: the printing of keys meets what C52 asks of it, and what is shown determines what is signed without further assumptions on how keys are printed.", "quantifier": "all keys of any length, all prefixes, all checksum functions", "why_tests_cant": "There are 2^256 keys and 2^14 prefixes; the tests print a few addresses of well-known accounts.", "anchors": ["src/cards.rs:IdData", "src/cards.rs:ParserCard", "src/lib.rs:ShortSpecs"]}
{"id": "C70", "title": "Only what follows the position matters, errors included", "statement": "decode_as_type_at_position at a position gives the outcome of the data from that position on standing alone: the same value or the same error, with every position it tells moved by the position it began at. What stands before the position matters for neither values nor errors, also with a memory that fails for the same bytes. The same holds for decode_as_call_unmarked and decode_extensions_unmarked. So parse_transaction of a length prefix, a call and extensions is put together from the outcome of the call standing alone and of the extensions standing alone: no call, broken or not, changes whether the extensions are accepted or how they are shown, and no accepted extensions change how the call is shown or which error is reported for it.", "quantifier": "all registries and metadata, all data before and after the position, all positions, all outcomes including every error, memories that fail for the same bytes", "why_tests_cant": "Relates two runs on unrelated buffers for every type, every content and every error; the tests decode fixed data at fixed positions.", "anchors": ["src/lib.rs:decode_as_type_at_position", "src/decoding_sci.rs:decode_with_type", "src/decoding_sci.rs:decode_as_call_unmarked", "src/decoding_sci_ext.rs:decode_extensions_unmarked", "src/lib.rs:parse_transaction", "src/lib.rs:parse_transaction_unmarked"]}
{"id": "C71", "title": "A transaction fits one version and one chain", "statement": "If parse_transaction accepts a transaction with the metadata of one version, then it refuses it with the metadata of every other version that has the same signed extensions, whatever calls and other types that version has, with the error WrongSpecVersion that tells the version the transaction needs and the version at hand. So metadata that have the same extensions and accept the same transaction are of the same version. Also, an accepted transaction has exactly one genesis hash: with that hash expected, or none, the outcome is the same, and with any other expected hash it is refused with WrongGenesisHash that tells both. The same holds for parse_transaction_unmarked (for versions: if the call ends at the same byte).", "quantifier": "all transactions, all pairs of metadata with the same signed extensions up to type numbers, all versions, all expected genesis hashes, all memories whose failures depend on the range only", "why_tests_cant": "Relates parses with two metadata that may differ in everything but the extensions, for all transactions; tests try one wrong version.", "anchors": ["src/lib.rs:parse_transaction", "src/lib.rs:parse_transaction_unmarked", "src/decoding_sci_ext.rs:check_extensions", "src/decoding_sci_ext.rs:decode_extensions_unmarked", "src/error.rs:SignableError"]}
{"id": "C72", "title": "The consumed bytes are read, all of them and no others", "statement": "If decode_as_type_at_position succeeds and consumes the bytes from the position to some end, then it succeeds with the same value and the same end on a memory with the same bytes that fails on every request reaching outside of that range: no byte before the position or behind the end is needed. The same holds for decode_as_call_unmarked; decode_as_call needs only the bytes of the call, not the length before it nor the extensions; decode_extensions needs only the bytes of the extensions, not the call. Conversely every consumed byte is needed: on a memory that fails on every request for some byte, no function returns a value that consumes this byte; decode_all_as_type, parse_transaction and parse_transaction_unmarked return no result if any byte of the data is withheld.", "quantifier": "all registries, types, data, positions, memories whose failures depend on the requested range in any way, withheld bytes", "why_tests_cant": "Ranges over all sets of failing requests and all types; a test withholds one range of one message.", "anchors": ["src/decoding_sci.rs:decode_as_type_at_position", "src/decoding_sci.rs:decode_as_call", "src/decoding_sci.rs:decode_as_call_unmarked", "src/decoding_sci_ext.rs:decode_extensions", "src/lib.rs:parse_transaction", "src/compacts.rs:find_compact"]}
{"id": "C73", "title": "The values shown are the values of the type, all of them", "statement": "Whatever decode_as_type_at_position or decode_all_as_type returns for a type is a value of that type: numbers in the range of their width, text, texts and vectors of less than 2^32 bytes or elements, arrays of the stated length, structs with exactly the fields of the type by name and order, enum variants of the type with their fields, well-formed eras, parts of one up to one, bit sequences of at most 0x1fffffff bits. And every such value is returned for some data. If the names of variants are distinct and the value leaves no freedom to the encoding, there is exactly one such data.", "quantifier": "all registries, types and values (for the second half: registries where elements of zero-length arrays do not contain themselves without an enum or vector in between)", "why_tests_cant": "Says of all values of all types that some data shows them; tests show some values of some types.", "anchors": ["src/decoding_sci.rs:decode_with_type", "src/lib.rs:decode_all_as_type", "src/decoding_sci.rs:decode_as_type_at_position"]}
{"id": "C74", "title": "The decoder is the inverse of an encoder", "statement": "There is an encoder, a program written from the SCALE rules and not from the decoder, that writes exactly the values of a type. decode_all_as_type of what it writes, and decode_as_type_at_position where it stands inside larger data, show the value that was written, and the position right behind it. Conversely, writing the value that decoding shows gives back the data that were decoded, byte by byte, if names tell the variants of enums apart and the value leaves no freedom (bit sequences fill their last element, parts of one inside compacts are below one); and in any case gives data that show the same value again.", "quantifier": "all registries (for decoding after encoding: where elements of zero-length arrays do not contain themselves directly), types, values and data", "why_tests_cant": "A round trip both ways over all values of all types and all data; a test encodes and decodes one.", "anchors": ["src/decoding_sci.rs:decode_with_type", "src/lib.rs:decode_all_as_type", "src/decoding_sci.rs:decode_as_type_at_position"]}
{"id": "C75", "title": "A properly built transaction is accepted, and only such", "statement": "parse_transaction accepts a payload, and shows a call with its arguments and the values of the extensions, exactly if the payload is the compact length of the call, the encoding of that call as a value of the call type of the metadata, and the encodings of exactly these extension values, one after another in the order of the metadata; and, among the extension values, exactly one counts as spec version and is that of the metadata, exactly one counts as genesis hash and is the expected one (if one is expected), at most one is an era and at most one counts as block hash, and with an immortal era the block hash is the genesis hash. What an extension counts as is determined by its name in the metadata and its type alone (or, for a struct with a single field, by the name and type of the field), never by its value or by other data. parse_transaction_unmarked does the same without the length. So a wallet that writes transactions by these rules is always understood, showing exactly what was written; and every transaction that is accepted could have been written by such a wallet.", "quantifier": "all metadata (where elements of zero-length arrays do not contain themselves directly), payloads, calls, arguments, extension values, genesis hashes", "why_tests_cant": "An equivalence over all payloads and all chains; tests accept some payloads and refuse some.", "anchors": ["src/decoding_sci_ext.rs:decode_extensions_unmarked", "src/decoding_sci_ext.rs:check_extensions", "src/lib.rs:parse_transaction", "src/lib.rs:parse_transaction_unmarked"]}
{"id": "C76", "title": "Extrinsics and storage entries are read as they were written", "statement": "decode_as_unchecked_extrinsic accepts data and shows given values (address, signature and extra if signed; call and arguments) exactly if the data is the compact length of what follows, the version byte (the version of the metadata, with the top bit set exactly if signed), the encodings of exactly these values in this order, and then anything (which is ignored and not shown). So whatever a node writes as an extrinsic from values is decoded to exactly these values, and what was decoded, written again, gives the data back, up to the ignored rest, if names tell the variants of enums apart and the values leave no freedom to the encoding. decode_as_storage_entry: the key that a node makes for an entry (hashes of the names of pallet and entry, then for every hasher the hash of the encoded value, followed by the encoded value for concatenating hashers, or the encoded value alone for identity) together with the encoded value, is accepted, and shows the value, of the key every part value that the hasher keeps, the hash of every other; and equal keys show the same, so that keys for different kept values differ.", "quantifier": "all metadata (where elements of zero-length arrays do not contain themselves directly), values, entries, hashers, hash functions of the right lengths", "why_tests_cant": "An equivalence over all data and chains; tests decode some recorded extrinsics and entries.", "anchors": ["src/unchecked_extrinsic.rs:decode_as_unchecked_extrinsic", "src/storage_data.rs:decode_as_storage_entry", "src/storage_data.rs:process_key_mapped"]}
{"id": "C77", "title": "What is shown of a storage entry tells the entry, but not whose it is", "statement": "If decode_as_storage_entry accepts a key and a value for an entry, then the key after its first 32 bytes, and the value, can be computed back from what is shown: hashes as they are, values encoded and hashed as the hashers say. So two accepted entries that show the same have the same value bytes and the same key bytes after the first 32 (provided the values leave no freedom, see C50). The first 32 bytes, the hashes of the names of pallet and entry, are not looked at, as documented: keys that differ only there (same length) give the same outcome, error or not, so a key of another entry or another pallet with the same hashers is shown alike.", "quantifier": "all registries (for the computing back: variant names distinct in every enum), entries, hash functions, keys, values, memories", "why_tests_cant": "A statement about all pairs of keys; tests decode some keys of the right entry.", "anchors": ["src/storage_data.rs:decode_as_storage_entry", "src/storage_data.rs:process_key_mapped"]}
{"id": "C78", "title": "Decoding a compound type is decoding its parts", "statement": "A call of decode_as_type_at_position for a struct, tuple, array, vector or enum has the same outcome (the value told, the new position, or the error) as calls of decode_as_type_at_position for its parts, one after another, each from where the one before left off: for a struct its fields, for a tuple its elements, for an array as many elements as its length says, for a vector as many as the compact length read first says, for an enum the fields of the variant picked by the byte read first; a call or event of a pallet takes two such bytes; a signature one, then its bytes. A struct with one field is decoded as the field is. So the outcome for a part never depends on what it is a part of: neither on hints and labels collected on the way, nor on the record kept against cyclic types, nor on the shortcut by which elements of sequences are decoded (looking through wrapper structs and compacts once, in advance), nor on the packing of integers in sequences. Where one would expect it otherwise: an empty vector or array of a type that cannot be looked through is an error, although no element is decoded.", "quantifier": "all registries in which no type contains itself without an enum or a vector in between, all types (with the exception named, for vectors and arrays of zero length), all bytes and positions, memories with any failing ranges", "why_tests_cant": "It is an equation between programs for all inputs, error outcomes included.", "anchors": ["src/lib.rs:decode_as_type_at_position", "src/decoding_sci.rs:decode_with_type", "src/decoding_sci.rs:decode_elements_set", "src/decoding_sci.rs:decode_fields", "src/decoding_sci.rs:husk_type"]}
{"id": "C79", "title": "Names are only names", "statement": "If two registries have the same types under the same ids and differ only in names (of variants, of fields, of the types of fields, of type parameters, in docs, and in paths as long as these are recognised alike), then decode_as_type_at_position, decode_all_as_type and, as long as the same extensions count as spec version, genesis hash, block hash and era, parse_transaction have the same outcome with both: the same error, or the same new position and the same value, with the names of variants and fields replaced. No name makes the decoder read more or fewer bytes or take the bytes for another value: a field called Balance or of type name Nonce, a docs line, a type called like another one. The names that do count are exactly: the paths for which there is a special decoding, Lsb0 and Msb0 as last segments of the path of a bit order, and the three type names of signatures within a MultiSignature.", "quantifier": "all pairs of registries that differ in names only, all maps of names (also ones that give two variants the same name), all ids, bytes and positions, memories with any failing ranges", "why_tests_cant": "It relates two runs on all pairs of registries.", "anchors": ["src/lib.rs:decode_as_type_at_position", "src/lib.rs:decode_all_as_type", "src/special_indicators.rs:SpecialtyTypeHinted", "src/special_indicators.rs:Hint", "src/propagated.rs:Propagated", "src/decoding_sci.rs:decode_with_type"]}
{"id": "C80", "title": "A transaction is decoded as its parts are, errors included", "statement": "What parse_transaction, parse_transaction_unmarked, decode_as_call_unmarked, decode_extensions_unmarked and decode_as_unchecked_extrinsic return, in values and errors, is what a caller gets from calls of decode_as_type_at_position for the parts, one after another, each from where the one before left off, and a look at the values: for the extensions the type of every signed extension, in the order of the metadata, then the additional signed type of every one; then all data must be used; then the values that count (spec version, genesis hash, block hash, era: by the name of the extension and the type) are judged, in this order: something there twice (the first repetition), no or a wrong spec version, no or an unexpected genesis hash, an immortal era with another block hash. The judgement depends on the values only. The call is the value of the call type; it is an error if this is not an enum of pallets. In parse_transaction an error with the extensions comes before one with the call, and an error with the call does not hide the extensions. So of several things that are wrong with a transaction it is determined which one is reported.", "quantifier": "all metadata, data, positions and expected genesis hashes, memories with any failing ranges", "why_tests_cant": "It is an equation between programs for all inputs, error outcomes included.", "anchors": ["src/lib.rs:parse_transaction", "src/lib.rs:parse_transaction_unmarked", "src/decoding_sci.rs:decode_as_call_unmarked", "src/decoding_sci.rs:decode_as_call", "src/decoding_sci_ext.rs:decode_extensions_unmarked", "src/decoding_sci_ext.rs:check_extensions", "src/unchecked_extrinsic.rs:decode_as_unchecked_extrinsic"]}
{"id": "C81", "title": "Untrusted memory: whatever it answers, even differently each time", "statement": "Let the external memory (of buffer and registry) be free to answer each read with any bytes of the requested length (an error if out of range) and each type request with any type or error, and to answer the same request differently at different times. Then decode_as_type_at_position, decode_all_as_type, parse_transaction, parse_transaction_unmarked and decode_as_unchecked_extrinsic end, with a result or a regular error and never in a panic (64-bit machines, or without overflow checks), and so does decode_as_storage_entry unless a hasher keeps the key beside the hash (such a key part is read twice, and the second read is expected to succeed); positions move forward and stay inside the data. A transaction that is shown has extensions that pass the checks of spec version, genesis hash and era as shown. If the types are told truly (the data still being arbitrary), all that is shown are values of their types: the call is a call of the chain, there is one extension for each in the metadata, in order, each part of an extrinsic and of a storage key is a value of its type. It is not claimed that what is shown was in the memory at any one time: that is false (examples: a compact shown that no bytes of its length encode; destination and amount from different contents; a storage key shown beside the hash of another).", "quantifier": "all memories (stateful, with arbitrary answers of the right length), all machine words of 32 bits or more that fit the data, all metadata whose methods return, all positions, ids and states", "why_tests_cant": "Tests feed fixed data and registries; all histories of answers of a memory, changing between any two reads, are not enumerable.", "anchors": ["src/traits.rs AddressableBuffer, ExternalMemory, ResolveType", "src/compacts.rs find_compact", "src/decoding_sci.rs decode_with_type", "src/decoding_sci_ext.rs decode_extensions_unmarked", "src/lib.rs parse_transaction, parse_transaction_unmarked", "src/unchecked_extrinsic.rs decode_as_unchecked_extrinsic", "src/storage_data.rs decode_as_storage_entry, check_hash!"]}
{"id": "C82", "title": "Nothing is assumed of the registry that an actual chain does not satisfy", "statement": "For the metadata of the crate's documentation and tests (Westend 9111, all 597 types): the crate reads from it the chain name and version, the types of calls, addresses and signatures and the signed extensions as stated; all conditions that other properties put on registries hold of it (no two variants of an enum with the same index or name, no type containing itself, elements of vectors take at least a byte, empty arrays have grounded elements, signatures are distinguishable, no 64-bit stores in bit sequences). Hence, with no condition left: decode_all_as_type decodes, for every type of the chain, exactly the encodings of its values; parse_transaction accepts exactly the payloads that consist, byte by byte, of the compact length of a call, a call of the chain, era, compact nonce, compact tip, spec version 9111, a transaction version, genesis hash and block hash (with an immortal era equal to the genesis hash); equal lines shown mean equal payloads; 32-bit targets have the same outcomes; the cost of memory accesses and the size of the output are below stated multiples of the input length.", "quantifier": "all data, all types of this chain, all expected genesis hashes, all failing memories (cost)", "why_tests_cant": "The tests parse a few payloads with this metadata; the claims are about all payloads and all values of all its types.", "anchors": ["for_tests/westend9111", "src/lib.rs crate documentation, parse_transaction, decode_all_as_type", "src/traits.rs AsMetadata for RuntimeMetadataV14"]}
{"id": "C83", "title": "A transfer that is shown is the transfer that is signed, byte by byte", "statement": "With the metadata of Westend 9111: parse_transaction shows the call Balances.transfer_keep_alive with destination account a and amount n exactly if n < 2^128, a has 32 bytes, and the payload is the bytes 4, 3, 0, a, compact n behind their compact length, followed by valid extensions. decode_as_unchecked_extrinsic shows an extrinsic with sender a, signature s of a kind k, era, nonce, tip and a call exactly if the data is the compact length, 0x84, 0, a, the number of the kind, s, era, compact nonce, compact tip, an encoding of the call (and whatever may follow).", "quantifier": "all data, accounts, amounts, signatures, eras, nonces, tips, calls", "why_tests_cant": "Tests show one transfer; that no other bytes are shown as this transfer needs all bytes.", "anchors": ["for_tests/westend9111", "src/lib.rs parse_transaction, crate documentation", "src/unchecked_extrinsic.rs decode_as_unchecked_extrinsic"]}
{"id": "C84", "title": "What is submitted is what was signed", "statement": "For metadata in which extrinsics carry the calls of the call type and the tuple of the signed extensions: if parse_transaction accepts a payload and shows a call and extension values, then the payload is a call, the extensions and what they add, and the extrinsic made of this call and these extensions, with any address and any signature, is decoded by decode_as_unchecked_extrinsic and shows exactly the call and the extension values that were shown of the payload. Conversely, if a signed extrinsic is decoded, every proper payload made of its call, its extensions and something added is accepted and shows the call and extension values that are shown of the extrinsic. Westend 9111 is such metadata; there the two layouts are spelled out byte by byte.", "quantifier": "all metadata of this kind, payloads, expected genesis hashes, addresses, signatures, extrinsics", "why_tests_cant": "Tests decode payloads and extrinsics separately, a few of each; that the two views of one transaction agree is a statement about all transactions of all chains.", "anchors": ["src/lib.rs parse_transaction", "src/unchecked_extrinsic.rs decode_as_unchecked_extrinsic", "src/traits.rs AsCompleteMetadata", "src/decoding_sci_ext.rs decode_ext_attempt"]}
{"id": "C85", "title": "The screen of a transfer, line by line", "statement": "For every receiver, every amount below 2^128 and every valid era, nonce, tip, transaction version, genesis hash and block hash: parse_transaction accepts the Westend 9111 payload of the transfer_keep_alive call, and the cards, shown with show, are exactly eight lines for the call (pallet, call, the two fields, the receiver's address, the amount in the unit of the chain) and seven for the extensions (era, nonce, tip, chain and version, transaction version, genesis hash, block hash). Conversely, with addresses in SS58 the payload of this transfer is the only payload that gives these lines. The texts of amount and tip are decimal numbers with a metric prefix whose product is exactly the amount in units.", "quantifier": "all receivers, amounts, eras, nonces, tips, transaction versions, hashes, unit names, decimals, address prefixes, payloads", "why_tests_cant": "The repository's test compares the lines of one documented transfer; whether the receiver and amount on the screen are those that get signed must hold for every transfer.", "anchors": ["src/lib.rs parse_transaction", "src/cards.rs ParsedData::card, ExtendedCard::show", "src/tests.rs tr_3"]}
{"id": "C86", "title": "A batch shown is the batch signed, at any depth of nesting", "statement": "Westend 9111 payloads whose call is built of transfers, batches (of any number of such calls) and calls from derived accounts, nested to any depth: parse_transaction shows such a call with these receivers, amounts and account numbers exactly if the bytes of the call are this nesting, byte by byte. The lines shown are exactly those of the parts, each call inside indented under the call that contains it, with its own receiver and amount in units; none is left out, whatever the depth. With addresses in SS58 no other payload gives these lines, and two different nestings never have the same bytes.", "quantifier": "all nestings of transfers, batches and derived calls, without bound on number or depth; all extensions, payloads, units, address prefixes", "why_tests_cant": "Hiding one more call in a batch, or a batch in a batch, is the classical way to have something signed that was not seen; a test sees only the batches it contains.", "anchors": ["src/lib.rs parse_transaction", "src/decoding_sci.rs decode_elements_set, decode_as_call, decode_variant", "src/cards.rs PalletSpecificData::card, ParsedData::card"]}
{"id": "C87", "title": "Position left behind by a failing call, with memory that fails at times", "statement": "decode_as_type_at_position, decode_as_call_unmarked and decode_extensions_unmarked take the position and the external memory as mutable references, and the caller sees both after an error. Whatever the memory answers, also if it answers the same question differently at different times, the position is never moved back and never past the end of the data, on success and on every error. If the memory tells the truth or fails (at any access, for any reason), then after an error the position stands at the item that could not be read, and an error that names a position names that one; a bit vector that was read and then not accepted is the only thing that is passed; an error about the contents of the extensions leaves the position at the end of the data. Outcome and memory state do not depend on the position being kept.", "quantifier": "all memories (states, answers, failures at any access), registries, metadata, data, types, start positions and initial memory states", "why_tests_cant": "Every access to the memory is a point where the call may end; the position at each of these points depends on what was read before.", "anchors": ["src/lib.rs decode_as_type_at_position", "src/decoding_sci.rs decode_with_type, decode_variant, decode_as_call_unmarked, into_bitvec_decode", "src/decoding_sci_ext.rs decode_extensions_unmarked", "src/compacts.rs get_compact", "src/special_types.rs cut_and_decode"]}
{"id": "C88", "title": "Chain parameters are read back as they were stored", "statement": "ShortSpecs, ExtrinsicTypeParams, SignedExtensionMetadata and SpecNameVersion can be encoded and decoded. Decoding succeeds exactly when the data begin with the encoding of some value (fields in order of declaration, lengths and type ids as minimal compact u32, texts valid UTF-8) and then gives that value and exactly the bytes after it. Hence every value is read back from its encoding, whatever follows, two values never share an encoding, and no encoding is the beginning of another.", "quantifier": "all values of the four structures, all byte sequences", "why_tests_cant": "All integers, all strings up to 2^32 bytes and all malformed inputs.", "anchors": ["src/lib.rs ShortSpecs", "src/traits.rs ExtrinsicTypeParams, SignedExtensionMetadata, SpecNameVersion"]}
{"id": "C89", "title": "Repeating a call after a failure", "statement": "Whenever no access to the memory failed during a call, its outcome is exactly that on reliable memory: value, labels, end position or error. A caller who repeats a call with the same arguments after an error (for transactions also if the result has no call) gets what reliable memory gives after at most as many further attempts as there are failures: the same value or transaction but for labels, and for types without calls, events and signatures exactly the same outcome, errors included. The position must be set back first: a caller who passes the same &mut position again may get a wrong value without an error.", "quantifier": "all memories, types, data, metadata, states and schedules of finitely many failures; the calls decode_as_type_at_position, decode_all_as_type, parse_transaction, parse_transaction_unmarked, decode_as_unchecked_extrinsic and decode_as_storage_entry", "why_tests_cant": "failures may come at any accesses, in any number, and in any of the attempts", "anchors": ["src/decoding_sci.rs: decode_with_type", "src/traits.rs: ExternalMemory, AsMetadata, ResolveType", "src/lib.rs: parse_transaction, parse_transaction_unmarked, decode_all_as_type", "src/unchecked_extrinsic.rs: decode_as_unchecked_extrinsic", "src/storage_data.rs: decode_as_storage_entry"]}
{"id": "C90", "title": "Older metadata shows the same or says that it does not know a variant", "statement": "If newer metadata differs from older only by more variants of enums that had variants (pallets, calls, events, other enums; every index that stood for a variant stands for the same one) and by more types, then every decoding call gives exactly the same outcome with both: value, labels, docs, end position and error. The same holds if the newer metadata also numbers its types differently, but for the type numbers named in errors and storage keys. The only exception: the older metadata gives an UnexpectedEnumVariant error. For a marked transaction this error may concern the call only, and then the extensions shown are the same. So a value, transaction, extrinsic or storage entry shown with the older metadata is shown the same with the newer.", "quantifier": "all registries and metadata related this way, types, data, memories and positions; the calls decode_as_type_at_position, decode_all_as_type, decode_as_call_unmarked, decode_extensions_unmarked, parse_transaction, parse_transaction_unmarked, decode_as_unchecked_extrinsic, decode_as_storage_entry", "why_tests_cant": "metadata of later runtimes is not known when the tests are written, and enums may grow anywhere and at any depth", "anchors": ["src/decoding_sci.rs: pick_variant, decode_variant, decode_with_type", "src/special_indicators.rs: SpecialtyTypeHinted, SpecialtyTypeChecked", "src/lib.rs: parse_transaction, parse_transaction_unmarked", "src/unchecked_extrinsic.rs: decode_as_unchecked_extrinsic", "src/storage_data.rs: decode_as_storage_entry"]}
{"id": "C91", "title": "An actual chain with version 15 metadata (Polkadot 1003003)", "statement": "For the metadata for_tests/polkadot1003003_v15 (968 types): the crate reads from it the chain name and version, the types of calls, addresses, signatures and extensions; the conditions that other properties put on registries hold of it. Hence, with no condition left: decode_all_as_type decodes, for every type of the chain, exactly the encodings of its values. parse_transaction (parse_transaction_unmarked) accepts exactly the payloads that consist, byte by byte, of the compact length of a call (without it), a call of the chain, era, compact nonce, compact tip, a mode byte 0 or 1, spec version 1003003, a transaction version, genesis hash, block hash (equal to the genesis hash with an immortal era) and an optional metadata hash; nothing relates mode and metadata hash. A payload is shown as a transfer_keep_alive to an account of an amount exactly if its call is, byte by byte, that transfer. An extrinsic is shown as signed by an account with a signature, extensions and call exactly if it is that extrinsic, byte by byte, with anything behind the call. Equal lines shown mean equal payloads; 32-bit targets have the same outcomes.", "quantifier": "all data, all types of this chain, all expected genesis hashes, all accounts, amounts, signatures and calls", "why_tests_cant": "The tests parse a few extrinsics and payloads with this metadata, and check one signature; the claims are about all of them.", "anchors": ["for_tests/polkadot1003003_v15", "src/tests.rs: unchecked_extrinsic_2", "src/traits.rs: AsMetadata, AsCompleteMetadata for RuntimeMetadataV15", "src/lib.rs: parse_transaction, parse_transaction_unmarked, decode_all_as_type", "src/unchecked_extrinsic.rs: decode_as_unchecked_extrinsic", "src/special_indicators.rs: SignatureIndicator"]}
{"id": "C92", "title": "The balance shown for an account is the balance stored (Westend 9111, Polkadot 1003003)", "statement": "With the metadata of either chain and its storage entry System.Account (a map from accounts hashed by blake2-128-concat): decode_as_storage_entry shows the account a with nonce, reference counts and four numbers (free, reserved and two more) exactly if the key is any 32 bytes followed by the blake2-128 hash of a and the 32 bytes of a, and the value is those numbers in little endian, four of 4 bytes and four of 16. It accepts exactly such keys with exactly 80 bytes of value, and never shows anything else. The cards are then line by line the ones given: the address, and each number under its field name, the nonce as a nonce, free, reserved and frozen amounts as balances (in the units of the chain, or as raw numbers, as asked for), Polkadot's flags as a mere number. With SS58 addresses and fewer than 256 decimals no other key and value give these lines.", "quantifier": "all keys and values, all accounts and numbers, all hash functions, all chain specs (for the last claim: decimals below 256), balances in units or raw", "why_tests_cant": "The tests decode one storage entry of another chain; this is about all accounts, all balances, and about what else could be shown in the same way.", "anchors": ["src/storage_data.rs: decode_as_storage_entry", "src/cards.rs: ExtendedData::card, ParsedData::card, ParserCard::show", "src/special_indicators.rs: SpecialtyUnsignedInteger, Hint", "for_tests/westend9111", "for_tests/polkadot1003003_v15"]}
{"id": "C93", "title": "The screen of a Polkadot transfer", "statement": "With the metadata of Polkadot 1003003 (version 15), any payload for a transfer of an amount to an account, with any valid extensions, is accepted and shown with exactly the lines given: pallet, call, destination address and amount as a balance in the unit of the chain; era, nonce, tip, the mode of the metadata check under its field name, the chain with its version, transaction version, both hashes, and the optional metadata hash \u2014 as a text if its 32 bytes happen to be one, else in hexadecimal digits. With SS58 addresses and fewer than 256 decimals, a payload is shown with these lines only if it is, byte by byte, the payload for this transfer with these extensions.", "quantifier": "all payloads, all accounts, amounts and extension values, all chain specs (for the last claim: decimals below 256)", "why_tests_cant": "The tests compare the lines of a few transactions; this is about all transfers, and about which other payloads could be shown in the same way.", "anchors": ["src/cards.rs: ExtendedData::card, ParsedData::card, ParserCard::show", "src/lib.rs: parse_transaction", "src/decoding_sci_ext.rs", "src/special_indicators.rs", "for_tests/polkadot1003003_v15"]}
{"id": "C94", "title": "A display without texts cannot be imitated", "statement": "Texts in the data are printed as they are, with their line breaks, so the printed display of one value can equal that of another. This is of no use against a display without texts: if the cards of some data (a value of a type, or the call and extensions of a transaction) contain no text or character from the data, then any other data of the same type, or any other accepted transaction of the same chain, whatever texts with whatever line breaks it contains, that is printed as the same text is the same data, and the same bytes if the encoding of the data leaves no freedom. Instances: on Westend 9111, a payload is printed as the lines of given orders to pay (nested batches of transfers) and given extensions only if it is, byte by byte, the payload for them; on Polkadot 1003003 the same for a transfer, unless its metadata hash happens to be a text.", "quantifier": "all data, all texts in the other data, all registries without line breaks in names, printers of keys and bits and a unit without line breaks", "why_tests_cant": "The other payload ranges over all payloads with arbitrary texts in them; a test can only show that some of them are printed differently.", "anchors": ["src/cards.rs: ExtendedData::show, ExtendedCard::show", "src/lib.rs: parse_transaction, decode_all_as_type"]}
{"id": "C95", "title": "A display without line breaks in its texts cannot be imitated", "statement": "Texts in the data are printed as they are, with their line breaks, so that a text can look like further cards. This is of no use against a display whose cards are all printed as one line each, even if texts are among them: any other data of the same type, or any other accepted transaction of the same chain, whatever texts with whatever line breaks it contains, that is printed as the same text is the same data, and the same bytes if the encoding of the data leaves no freedom. A wallet that refuses (or marks) texts with line breaks therefore shows what is signed. The condition is needed: two values with line breaks in both are printed alike. On Polkadot 1003003 a payload is printed as the lines of a given transfer with given extensions only if it is, byte by byte, the payload for them, also if the metadata hash happens to be a text of one line.", "quantifier": "all data printed with one line per card, all texts in the other data, all registries without line breaks in names, printers of keys and bits and a unit without line breaks", "why_tests_cant": "The other payload ranges over all payloads with arbitrary texts in them; a test can only show that some of them are printed differently.", "anchors": ["src/cards.rs: ExtendedData::show, ExtendedCard::show", "src/lib.rs: parse_transaction, parse_transaction_unmarked, decode_all_as_type"]}
{"id": "C96", "title": "Cards quote the texts of the data and no others", "statement": "Every text that a card shows as coming from the data (as text, character, name of the specification, or bytes that are UTF-8) is in the data: a text, a character, or a list of bytes that are this text. Every text and every character in the data is shown by a card. For transactions the data are the arguments of the call and the extensions. Nothing else on the cards breaks a line, if names, the unit, keys and bits do not: a display has one line per card if no text in the data has a line break, and only if no text and no character has one. So whoever looks at the value alone (for line breaks in its texts) knows whether the display can be imitated (C95). Bytes are shown as text in unmarked lists only: a list of bytes marked as nonces is shown number by number.", "quantifier": "all registries, all data decoded with them, all accepted transactions, all indents", "why_tests_cant": "All values of all types; a text can be anywhere in a tree of any depth.", "anchors": ["src/cards.rs: ParsedData::card, ExtendedCard::show", "src/lib.rs: parse_transaction, parse_transaction_unmarked, decode_all_as_type"]}
{"id": "C97", "title": "Remarks on Polkadot: the message shown is the message signed", "statement": "On Polkadot 1003003 a payload is read as System.remark of a given message exactly if it is, byte by byte, the payload with this remark and acceptable extensions; any bytes can be the message. It is shown with exactly four lines, the last one an empty list, the message as text, or its bytes in hexadecimal digits, whichever applies, followed by the lines of the extensions. Line by line the payload is the only one with these lines, whatever the message. As one text, too, it is the only one printed like this, also if the message (or the hash of the metadata, or any text in the other payload) has line breaks and goes on like further cards: where the message ends can be told from the lines of the extensions behind it.", "quantifier": "all messages, all acceptable extensions, all payloads, all texts in other payloads", "why_tests_cant": "All messages of any length, and all other payloads.", "anchors": ["src/lib.rs: parse_transaction", "src/decoding_sci.rs: decode_with_type, wrap_sequence", "src/cards.rs: ParsedData::card, ExtendedCard::show"]}
