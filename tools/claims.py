c("C01", "proved", ["decode_sound", "decodeAsTypeAtPosition_sound", "decodeAllAsType_sound"])
c("C02", "proved", ["decode_complete", "decodeAllAsType_complete", "encoding_unambiguous"])
c("C03", "proved", ["decode_total", "decode_recursive", "decode_cyclic", "huskType_total"])
c("C04", "proved", ["decode_total"])
c("C05", "proved", ["decode_position"])
c("C06", "proved", ["decode_local"])
c("C07", "proved", ["decode_truncated"])
c("C09", "proved", ["decode_faulty", "decode_faulty_cases", "decode_faulty_exact"])
c("C10", "proved", ["decodeAllAsType_iff", "decodeAllAsType_surplus_iff", "decodeAllAsType_surplus", "decodeAllAsType_not_all"])
c("C45", "proved", ["decode_unresolved", "decode_needs"])
c("C46", "proved", ["decode_unbounded_output"])
c("C08", "proved", ["decode_hint_independent", "decode_identifier_independent"])
c("C11", "proved", ["getCompact_roundtrip", "getCompact_roundtrip_at"])
c("C12", "proved", ["getCompact_canonical", "compactDecode_rejects"])
c("C13", "proved", ["findCompact_outOfRange", "findCompact_noCompact", "findCompact_cases", "findCompact_shortest"])
c("C14", "proved", ["era_roundtrip", "era_reencode", "era_encode_injective"])
c("C15", "proved", ["era_wellformed", "era_all_reachable"])
c("C16", "proved", ["enc_ranged", "decode_ranged", "decodeAllAsType_ranged", "sizes_documented"])
c("C17", "proved", ["decode_compactable", "decode_uncompactable", "decode_compact_vector"])
c("C18", "proved", ["pickVariant_iff", "pickVariant_unknown", "pickVariant_perm"])
c("C19", "proved", ["wrapSequence_lossless", "wrapSequence_uints", "wrapSequence_bytes"])
c("C20", "proved", ["decodeBitSequence_iff", "bitsEnc_length", "bitsEnc_unique"])
c("C40", "proved", ["field_label_by_name", "field_label_by_type_name", "struct_field_label", "decode_shown"])
c("C41", "proved", ["decode_label_dropped", "decode_label_several", "handed_label", "decode_shown"])
c("C44", "proved", ["huskType_faithful", "huskType_strips", "huskType_iff", "huskType_cyclic"])
c("C48", "proved", ["decode_shown", "decodeAllAsType_shown", "flatten_flat", "decodeAsCallUnmarked_shown", "decodeAsCall_shown"])
c("C22", "proved", ["mark_partition", "mark_complete", "mark_cases"])
c("C23", "proved", ["decodeAsCall_sound", "decodeAsCall_confined", "decodeAsCall_complete", "decodeAsCall_not_all", "decodeAsCall_calm"])
c("C24", "proved", ["decodeAsCallUnmarked_sound", "decodeAsCallUnmarked_not_a_call", "decodeAsCallUnmarked_complete"])
c("C25", "proved", ["decodeExtensionsUnmarked_sound", "decodeExtensionsUnmarked_complete", "decodeExtensionsUnmarked_local", "decodeExtensionsUnmarked_calm"])
c("C26", "proved", ["checkExtensions_iff", "decodeExtensionsUnmarked_sound", "decodeExtensionsUnmarked_bytes", "checkExtensions_noSpecVersion", "checkExtensions_wrongSpecVersion"])
c("C27", "proved", ["checkExtensions_iff", "decodeExtensionsUnmarked_sound", "decodeExtensionsUnmarked_bytes", "checkExtensions_wrongGenesisHash"])
c("C28", "proved", ["checkExtensions_iff", "decodeExtensionsUnmarked_sound", "decodeExtensionsUnmarked_bytes", "checkExtensions_immortalMismatch"])
c("C29", "proved", ["parseTransaction_sound", "parseTransaction_complete", "parseTransaction_iff", "parseTransaction_calm", "parseTransactionUnmarked_sound"])
c("C30", "proved", ["decodeUncheckedExtrinsic_sound", "decodeUncheckedExtrinsic_short", "decodeUncheckedExtrinsic_long", "decodeUncheckedExtrinsic_version", "decodeUncheckedExtrinsic_signed", "decodeUncheckedExtrinsic_unsigned", "decodeUncheckedExtrinsic_calm"])
c("C31", "proved", ["decodeUncheckedExtrinsic_tail", "decodeUncheckedExtrinsic_not_all_used", "decodeUncheckedExtrinsic_sound"], "The naive expectation (all bytes used) is false and refuted; the property as restated is proved.")
c("C32", "proved", ["decodeStorageEntry_sound", "decodeStorageEntry_complete", "decodeStorageEntry_short", "decodeStorageEntry_plain_long", "decodeStorageEntry_unused", "decodeStorageEntry_tuple"])
c("C33", "proved", ["decodeStorageEntry_sound", "decodeStorageEntry_complete", "decodeStorageEntry_mismatch", "checkHash_mismatch"])
c("C34", "proved", ["decodeStorageEntry_calm", "decodeStorageEntry_panics"], "Panic possible only if external memory of the key fails; witness given.")
c("C42", "proved", ["specNameVersionOf_iff", "specNameVersionOf_sound", "specNameVersionOf_errors", "V14_specNameVersion_iff", "V15_specNameVersion_iff", "V14_metadata_calm", "V15_metadata_calm"])
c("C43", "proved", ["V14_extrinsicTypeParams_iff", "V14_extrinsicTypeParams_missing", "V14_extrinsicTypeParams_unexpected", "V14_callTy_iff", "processParams_eq"])
c("C35", "proved", ["balance_value", "balance_injective"])
c("C36", "proved", ["balance_form"])
c("C37", "proved", ["card_drawn", "card_leaves", "call_leaves", "decodeAllAsType_cards", "parseTransaction_cards", "parseTransactionUnmarked_cards"])
c("C38", "proved", ["card_drawn", "card_indented", "call_indented"])
c("C39", "proved", ["card_balance", "call_balance", "card_amounts", "parseTransaction_cards"])
c("C47", "proved", ["show_lineCount", "show_oneLine_iff", "show_injective", "showAll_injective", "show_forged", "show_prefix", "showWithDocs_eq", "show_line", "showWithDocs_text"], "The naive expectation (one line per card) is false and refuted; the property as restated is proved.")
c("C21", "proved", ["patch_agrees_iff", "patch_agrees", "patch_panics", "patch_short", "patch_sound", "stored_bitsEnc", "bitsEnc_stored", "patch_loses", "patch_misreads"], "The naive expectation (always equal to the 64-bit decoder) is false and refuted; the property as restated is proved.")
c("C49", "proved", ["decode_errors_true", "decodeAll_errors_true", "decode_errors_position", "decode_unresolved_true", "decode_no_cycle"])
c("C50", "proved", ["firm_encoding_unique", "decode_canonical", "decodeAllAsType_canonical"])
c("C51", "proved", ["parseTransactionUnmarked_alike", "parseTransaction_alike", "decodeUncheckedExtrinsic_alike", "sameRuntime_alike", "v14_v15_alike"])
c("C52", "proved", ["decode_legible", "decodeAllAsType_legible", "decodeAllAsType_signs", "decodeAllAsType_show_legible", "parseTransaction_legible", "parseTransaction_signs", "parseTransactionUnmarked_legible", "parseTransactionUnmarked_signs","decodeAllAsType_signs_ss58","parseTransaction_signs_ss58"])
c("C53", "proved", ["decode_shortened", "decodeAllAsType_shortened", "decodeAsCall_shortened", "parseTransactionUnmarked_shortened", "parseTransaction_shortened", "decodeUncheckedExtrinsic_shortened", "decodeStorageEntry_shortened"], "Conditions on the full registry (distinct indices, nameless arrays) and on the shortening (no enum emptied) are in the property; examples show what goes wrong without them.")
c("C54", "proved", ["parseTransaction_marked_iff", "parseTransactionUnmarked_marked", "decodeAsCallUnmarked_local", "decodeUncheckedExtrinsic_call", "decodeUncheckedExtrinsic_unsigned_call", "call_types_agree"])
c("C55", "proved", ["decode_nesting", "decode_depth", "decode_nesting_unbounded"])
c("C56", "proved", ["decodeExtensionsUnmarked_errors_true", "decodeAsCallUnmarked_errors_true", "decodeAsCall_errors_true", "mark_errors_true", "parseTransaction_errors_true", "parseTransaction_call_errors_true", "parseTransactionUnmarked_errors_true", "decodeUncheckedExtrinsic_errors_true", "decodeStorageEntry_errors_true"], "Errors of the metadata functions themselves are covered case by case in C42 and C43.")
c("C57", "proved", ["decodeAsTypeAtPositionD_ends", "decodeAllAsTypeD_ends", "decodeAsTypeAtPositionD_sound", "decodeAllAsTypeD_sound", "scripted_flaky", "decodeD_steady", "decodeAllAsTypeD_steady"], "")
c("C58", "proved", ["decodeAsTypeAtPositionD_plain", "decodeAsTypeAtPositionD_agrees", "decodeAllAsTypeD_agrees", "decodeAsTypeAtPositionD_exact", "decodeAsTypeAtPositionD_converse", "decodeAsTypeAtPositionD_labelFree"], "")
c("C59", "proved", ["decodeAsTypeAtPositionD_words", "parseTransactionD_words", "parseTransactionUnmarkedD_words", "decodeUncheckedExtrinsicD_words", "decodeStorageEntryD_words", "usize64_fits", "markD_overflow", "decodeUncheckedExtrinsicD_overflow", "decodeUncheckedExtrinsicD_success"], "Arithmetic only; the other code that 32-bit targets have for bit sequences with u64 store is C21 and C67.")
c("C60", "proved", ["parseTransactionD_ends", "parseTransactionD_sound", "parseTransactionUnmarkedD_ends", "parseTransactionUnmarkedD_sound", "decodeUncheckedExtrinsicD_ends", "decodeUncheckedExtrinsicD_sound", "decodeStorageEntryD_ends", "decodeStorageEntryD_sound", "parseTransactionD_checks"], "")
c("C61", "proved", ["parseTransactionD_agrees", "parseTransactionD_converse", "parseTransactionUnmarkedD_agrees", "decodeUncheckedExtrinsicD_agrees", "decodeStorageEntryD_agrees", "decodeExtensionsUnmarkedD_exact", "parseTransactionUnmarkedD_converse", "decodeUncheckedExtrinsicD_converse", "decodeStorageEntryD_converse"], "hypotheses on the registry checked by Props/Checkers; they hold of the metadata in /repo/for_tests")
c("C62","proved",["decodeAsTypeAtPosition_renumbered","decodeAllAsType_renumbered","decodeAsTypeAtPosition_local","decodeAllAsType_local","decodeAsCallUnmarked_renumbered","decodeAsCall_renumbered","decodeExtensionsUnmarked_renumbered","parseTransactionUnmarked_renumbered","parseTransaction_renumbered","decodeUncheckedExtrinsic_renumbered","decodeStorageEntry_renumbered","v14_renumbered","v15_renumbered"],"Equalities of outcomes, errors included. The types that count are those of Spec.Seen; nothing is asked of the others. Type parameters count only for V14 metadata (parts of the extrinsic).")
c("C63","proved",["position_outcome","position_total","position_forward","position_after_error","position_call","position_extensions","position_transaction"],"")
c("C64","proved",["error_text_inner","error_text_parser_own","error_text_parser","error_text_storage","error_text_extrinsic","error_text_signable","error_text_transaction","error_text_transaction_unmarked","error_text_transaction_call","plainTexts_clear"],"Texts of BufferError and of external memory errors come from outside of the crate and are parameters.")
c("C65","proved",["decode_size","value_size_linear","value_size_largest","whole_value_size_linear","ranked_budget","transaction_size_linear","unmarked_size_linear","extrinsic_size_linear","storage_size_linear","value_cards_linear","transaction_cards_linear","solidVectors_check","WeightExample.bound_fails"],"K is explicit (largestSize); 960 to 6240 for the metadata in /repo/for_tests, all of which pass solidVectors_check")
c("C66","proved",["value_cost_linear","value_cost_consumed","value_cost_ranked","whole_value_cost_linear","ranked_toll","metered_meters","metered_flaky","transaction_cost_linear","transactionUnmarked_cost_linear","call_cost_linear","extensions_cost_linear","extrinsic_cost_linear","storage_cost_linear","CostExample.bound_exceeded"],"K is explicit (largestCost), with 400 for the accesses of one type itself. On the device model (Model/Device, Model/DeviceTx), any memory that is Flaky.")
c("C67","proved",["decode32_outcome","decode32_success","decodeAllAsType32","parseTransaction32","parseTransactionUnmarked32","decodeUncheckedExtrinsic32","decodeStorageEntry32","decode32_same","functions32_same","with_decode","noU64Bits_check","decode32_misreads","decode32_panics"],"noU64Bits holds of the metadata in /repo/for_tests (see DESIGN); the last two theorems are the counterexamples of the statement. Sums beyond a machine word are C59.")
c("C68","proved",["error_final","error_tooShort","error_answered","error_of_beginning","all_error_final","call_error_final","decode_never_outOfRange"],"Memory that never fails (failing memory is C61). Not for whole extrinsics and transactions: there a length prefix or the end of the data decides, see C29, C30.")
c("C69","proved",["ss58_injective","ss58_key","base58_injective","ss58_prefix_mod","ss58_faithful"],"The SS58 format is that of the crate substrate_crypto_light (not in /repo), modelled from its documentation.")
c("C70","proved",["decode_shift","decode_from","decode_before","call_shift","extensions_shift","parseTransaction_parts","transaction_any_call","transaction_any_extensions","parseTransactionUnmarked_parts"],"C06 is the part for data that decode (and does not ask for the same data after what is consumed).")
c("C71","proved",["transaction_otherVersion","transaction_oneVersion","unmarked_otherVersion","transaction_oneChain","unmarked_oneChain","nextVersion_same"],"That the version and hash are those in the data is C26 and C27.")
c("C72","proved",["decode_reads_inside","decode_reads_inside_reliable","call_reads_inside","marked_call_reads_inside","extensions_reads_inside","marked_extensions_reads_inside","decode_reads_every_byte","decodeAll_reads_every_byte","call_reads_every_byte","extensions_reads_every_byte","parseTransaction_reads_every_byte","parseTransactionUnmarked_reads_every_byte"],"The look at the index byte of an enum without variants is the one request outside of the range; it does not influence the outcome. Failures that come and go are C57 to C61.")
c("C73","proved",["decode_typed", "shown_iff_typed", "typed_one_data", "typed_encoded", "encoded_typed"],"The encodings themselves are C01 and C02; when there is one only is C50.")
c("C74","proved",["decode_encode", "decode_encode_inside", "encode_iff_typed", "encode_decode", "encode_decode_inside", "encode_decode_same", "Encoder'.encode_sound", "Encoder'.typed_written"],"From some depth on: the bound on recursion exists for every value, it is not computed.")
c("C75","proved",["parseTransaction_exact", "parseTransactionUnmarked_exact", "parseTransaction_refuses", "wallet_decides", "wallet_parsed", "wallet_parsed_unmarked", "parsed_written", "accepted_iff_proper"],"Reliable memory.")
c("C76","proved",["decodeUncheckedExtrinsic_exact", "node_extrinsic_decoded", "extrinsic_written", "node_storage_decoded", "node_keys_differ"],"Reliable memory.")
c("C77","proved",["storage_prefix_ignored", "storage_rebuilt", "storage_shown_determines"],"storage_prefix_ignored: the prefix of a key is never checked (as documented).")
c("C78","proved",["pieces_struct", "pieces_tuple", "pieces_array", "pieces_vector", "pieces_enum", "pieces_pallet", "pieces_signature"],"Registries are required to be ranked (no type contains itself without an enum or a vector in between); in others the cycle check makes parts depend on their context.")
c("C79","proved",["decode_names", "decodeAll_names", "decode_docs_ignored", "decode_any_names", "transaction_names"],"For transactions the identifiers of signed extensions do count, and names of fields inside extensions if they decide what counts as spec version; `transaction_names` asks that what counts stays the same.")
c("C80","proved",["pieces_transaction", "pieces_transaction_unmarked", "pieces_call", "pieces_extensions", "pieces_extrinsic", "verdict_proper"],"`verdict_proper`: nothing is found wrong exactly if the values are proper in the sense of C75.")
c("C81","proved",["decodeAsTypeAtPositionD_untrusted", "decodeAllAsTypeD_untrusted", "decodeAsTypeAtPositionD_valueOf", "decodeAllAsTypeD_valueOf", "parseTransactionD_untrusted", "parseTransactionD_accepted", "parseTransactionD_valuesOf", "parseTransactionUnmarkedD_untrusted", "parseTransactionUnmarkedD_accepted", "parseTransactionUnmarkedD_valuesOf", "decodeUncheckedExtrinsicD_untrusted", "decodeUncheckedExtrinsicD_valuesOf", "decodeStorageEntryD_untrusted", "decodeStorageEntryD_valuesOf"],"Concrete changing memories in `Witness/Hostile.lean`.")
c("C82","proved",["westend_metadata", "westend_registry", "westend_values", "westend_transaction", "westend_unmarked", "westend_signs", "westend_32bit", "westend_cost", "westend_size"],"The transaction of the crate's documentation in `Witness/Westend.lean`.")
c("C83","proved",["westend_transfer", "westend_extrinsic"],"The transfer of the crate's documentation in `Witness/Westend.lean`.")
c("C84","proved",["submitted_as_signed", "signed_as_submitted", "westend_submitted", "westend_oneChain"],"The transaction of the crate's documentation, sent in an extrinsic and back, in `Witness/Submitted.lean`.")
c("C85","proved",["westend_screen", "westend_screen_only", "amountText_money"],"The documented transaction with exactly the lines of src/tests.rs:392-421, address included, in `Witness/Screen.lean`.")
c("C86","proved",["westend_orders", "westend_orders_screen", "westend_orders_only", "orders_distinct"],"A batch of a transfer, an empty batch and a batch in a batch, with all lines, in `Witness/Batch.lean`.")
c("C87","proved",["posAsTypeD_outcome", "posAsTypeD_ahead", "posAsTypeD_total", "posAsTypeD_located", "posAsCallUnmarkedD_outcome", "posAsCallUnmarkedD_ahead", "posAsCallUnmarkedD_located", "posExtensionsUnmarkedD_outcome", "posExtensionsUnmarkedD_ahead", "posExtensionsUnmarkedD_located"],"The errors of the memory itself (BufferError::External, RegistryError::External) name no position. Examples with a failure at a chosen access at the end of `Props/PosDevice.lean`.")
c("C88","proved",["decodeShortSpecs_iff", "decodeExtrinsicParams_iff", "decodeSignedExt_iff", "decodeSpecNameVersion_iff", "stored_once"],"parity-scale-codec's derive and UntrackedSymbol's codec are modelled as documented; the contents of codec errors are not.")
c("C89","proved",["quiet_value", "quiet_all", "quiet_transaction", "quiet_unmarked", "quiet_extrinsic", "quiet_storage", "watching_counts", "retry_value", "retry_labelFree", "retry_transaction", "retry_unmarked", "retry_extrinsic", "retry_storage", "scripted_tires", "carryOn_wrong"],"Storage: for hashers that do not keep the key, others may panic on failing memory (C34, C60).")
c("C90","proved",["decodeAsTypeAtPosition_upgraded", "decodeAllAsType_upgraded", "decodeAsTypeAtPosition_still", "decodeAsCallUnmarked_upgraded", "decodeExtensionsUnmarked_upgraded", "parseTransactionUnmarked_upgraded", "parseTransaction_upgraded", "decodeUncheckedExtrinsic_upgraded", "decodeStorageEntry_upgraded", "keepsVariants_append", "keepsVariants_of_indices", "upgraded_of_lists", "decodeAsTypeAtPosition_upgradedBy", "decodeAllAsType_upgradedBy", "decodeAsCallUnmarked_upgradedBy", "parseTransactionUnmarked_upgradedBy", "parseTransaction_upgradedBy", "decodeUncheckedExtrinsic_upgradedBy", "decodeStorageEntry_upgradedBy", "upgradedBy_of_lists"],"Type parameters may change freely. An enum without variants must stay so: it takes no bytes. A variant that changes its index is shown as another variant, without an error (example).")
c("C91","proved",["polkadot_metadata", "polkadot_registry", "polkadot_values", "polkadot_transaction", "polkadot_unmarked", "polkadot_transfer", "polkadot_extrinsic", "polkadot_signs","polkadot_submitted","polkadot_oneChain", "polkadot_32bit"],"`Witness/Polkadot.lean` has the extrinsic of the crate's test `unchecked_extrinsic_2`: it is shown as another call than the one it was made for, and its last three bytes are ignored (finding 1).")
c("C92","proved",["westend_account", "westend_account_only", "westend_account_accepted", "westend_account_screen", "westend_account_screen_only", "polkadot_account", "polkadot_account_only", "polkadot_account_accepted", "polkadot_account_screen", "polkadot_account_screen_only"],"That the entry in the metadata is the one used here is checked by `tools/conformance.py`. The first 32 bytes of the key are not checked by the crate (finding on key prefixes). Alice's actual key, and her screen, in `Witness/Accounts.lean`.")
c("C93","proved",["polkadot_screen", "polkadot_screen_only"],"The lines are compared one by one as elements of a list: a metadata hash that spells a text with a line break looks like two lines when printed (finding on forged lines, instance in `Witness/PolkadotScreen.lean`). `show_with_docs` is not covered here.")
c("C94","proved",["decodeAllAsType_printed", "decodeAllAsType_printed_bytes", "parseTransaction_printed", "parseTransaction_printed_bytes", "westend_printed", "westend_orders_printed", "polkadot_printed", "polkadot_transfer_printed"],"Call and extensions are printed one below the other, as the documentation does; equality of both parts separately is a special case. `show_forged` (C47) is an imitation of a display with texts.")
c("C95","proved",["decodeAllAsType_unforged", "decodeAllAsType_unforged_bytes", "parseTransaction_unforged", "parseTransaction_unforged_bytes", "parseTransactionUnmarked_unforged", "parseTransactionUnmarked_unforged_bytes", "westend_unforged", "polkadot_unforged", "polkadot_transfer_unforged"],"Stronger than C94 where the display has texts; both displays begin at the same depth. `show_forged` (C47) and the example in `Witness/Unforged` show that the condition cannot be dropped.")
c("C96","proved",["decodeAllAsType_quotes", "decodeAllAsType_oneLine", "decodeAllAsType_oneLine_inv", "decodeAllAsType_own_display", "parseTransaction_quotes", "parseTransaction_oneLine", "parseTransaction_own_display", "parseTransactionUnmarked_quotes", "parseTransactionUnmarked_oneLine", "parseTransactionUnmarked_own_display"],"That a list of bytes may be shown without its text is the example with nonces in `Witness/Quoted`.")
c("C97","proved",["polkadot_remark", "polkadot_remark_screen", "polkadot_remark_screen_only", "polkadot_remark_unforged", "polkadot_remark_unforgeable"],"The other pallets and calls of Polkadot are covered by the general theorems (C52, C95) only.")
