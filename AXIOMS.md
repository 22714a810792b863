# Axioms of the theorems in MANIFEST.json

| theorem | axioms |
|---|---|
| `Verif.CostExample.bound_exceeded` | propext, Classical.choice, Quot.sound |
| `Verif.Encoder'.encode_sound` | propext, Classical.choice, Quot.sound |
| `Verif.Encoder'.typed_written` | propext, Classical.choice, Quot.sound |
| `Verif.V14_callTy_iff` | propext, Classical.choice, Quot.sound |
| `Verif.V14_extrinsicTypeParams_iff` | propext, Classical.choice, Quot.sound |
| `Verif.V14_extrinsicTypeParams_missing` | propext, Classical.choice, Quot.sound |
| `Verif.V14_extrinsicTypeParams_unexpected` | propext, Classical.choice, Quot.sound |
| `Verif.V14_metadata_calm` | propext, Classical.choice, Quot.sound |
| `Verif.V14_specNameVersion_iff` | propext, Classical.choice, Quot.sound |
| `Verif.V15_metadata_calm` | propext, Classical.choice, Quot.sound |
| `Verif.V15_specNameVersion_iff` | propext, Classical.choice, Quot.sound |
| `Verif.WeightExample.bound_fails` | propext, Classical.choice, Quot.sound |
| `Verif.accepted_iff_proper` | propext, Quot.sound |
| `Verif.all_error_final` | propext, Classical.choice, Quot.sound |
| `Verif.amountText_money` | propext, Classical.choice, Quot.sound |
| `Verif.balance_form` | propext, Classical.choice, Quot.sound |
| `Verif.balance_injective` | propext, Classical.choice, Quot.sound |
| `Verif.balance_value` | propext, Classical.choice, Quot.sound |
| `Verif.base58_injective` | propext, Classical.choice, Quot.sound |
| `Verif.bitsEnc_length` | propext, Classical.choice, Quot.sound |
| `Verif.bitsEnc_stored` | propext |
| `Verif.bitsEnc_unique` | propext, Classical.choice, Quot.sound |
| `Verif.call_balance` | propext, Classical.choice, Quot.sound |
| `Verif.call_cost_linear` | propext, Classical.choice, Quot.sound |
| `Verif.call_error_final` | propext, Classical.choice, Quot.sound |
| `Verif.call_indented` | propext, Classical.choice, Quot.sound |
| `Verif.call_leaves` | propext, Classical.choice, Quot.sound |
| `Verif.call_reads_every_byte` | propext, Classical.choice, Quot.sound |
| `Verif.call_reads_inside` | propext, Classical.choice, Quot.sound |
| `Verif.call_shift` | propext, Classical.choice, Quot.sound |
| `Verif.call_types_agree` | propext, Classical.choice, Quot.sound |
| `Verif.card_amounts` | propext, Classical.choice, Quot.sound |
| `Verif.card_balance` | propext, Classical.choice, Quot.sound |
| `Verif.card_drawn` | propext, Classical.choice, Quot.sound |
| `Verif.card_indented` | propext, Classical.choice, Quot.sound |
| `Verif.card_leaves` | propext, Classical.choice, Quot.sound |
| `Verif.carryOn_wrong` | propext, Classical.choice, Quot.sound |
| `Verif.checkExtensions_iff` | propext, Quot.sound |
| `Verif.checkExtensions_immortalMismatch` | propext, Quot.sound |
| `Verif.checkExtensions_noSpecVersion` | propext, Quot.sound |
| `Verif.checkExtensions_wrongGenesisHash` | propext, Quot.sound |
| `Verif.checkExtensions_wrongSpecVersion` | propext, Quot.sound |
| `Verif.checkHash_mismatch` | propext, Classical.choice, Quot.sound |
| `Verif.compactDecode_rejects` | propext, Quot.sound |
| `Verif.decode32_misreads` | propext, Classical.choice, Quot.sound |
| `Verif.decode32_outcome` | propext, Classical.choice, Quot.sound |
| `Verif.decode32_panics` | propext, Classical.choice, Quot.sound |
| `Verif.decode32_same` | propext, Classical.choice, Quot.sound |
| `Verif.decode32_success` | propext, Classical.choice, Quot.sound |
| `Verif.decodeAllAsType32` | propext, Classical.choice, Quot.sound |
| `Verif.decodeAllAsTypeD_agrees` | propext, Classical.choice, Quot.sound |
| `Verif.decodeAllAsTypeD_ends` | propext, Classical.choice, Quot.sound |
| `Verif.decodeAllAsTypeD_sound` | propext, Classical.choice, Quot.sound |
| `Verif.decodeAllAsTypeD_steady` | propext, Classical.choice, Quot.sound |
| `Verif.decodeAllAsTypeD_untrusted` | propext, Classical.choice, Quot.sound |
| `Verif.decodeAllAsTypeD_valueOf` | propext, Classical.choice, Quot.sound |
| `Verif.decodeAllAsType_canonical` | propext, Classical.choice, Quot.sound |
| `Verif.decodeAllAsType_cards` | propext, Classical.choice, Quot.sound |
| `Verif.decodeAllAsType_complete` | propext, Classical.choice, Quot.sound |
| `Verif.decodeAllAsType_iff` | propext, Classical.choice, Quot.sound |
| `Verif.decodeAllAsType_legible` | propext, Classical.choice, Quot.sound |
| `Verif.decodeAllAsType_local` | propext, Classical.choice, Quot.sound |
| `Verif.decodeAllAsType_not_all` | propext, Classical.choice, Quot.sound |
| `Verif.decodeAllAsType_oneLine` | propext, Classical.choice, Quot.sound |
| `Verif.decodeAllAsType_oneLine_inv` | propext, Classical.choice, Quot.sound |
| `Verif.decodeAllAsType_own_display` | propext, Classical.choice, Quot.sound |
| `Verif.decodeAllAsType_printed` | propext, Classical.choice, Quot.sound |
| `Verif.decodeAllAsType_printed_bytes` | propext, Classical.choice, Quot.sound |
| `Verif.decodeAllAsType_quotes` | propext, Classical.choice, Quot.sound |
| `Verif.decodeAllAsType_ranged` | propext, Classical.choice, Quot.sound |
| `Verif.decodeAllAsType_renumbered` | propext, Classical.choice, Quot.sound |
| `Verif.decodeAllAsType_shortened` | propext, Classical.choice, Quot.sound |
| `Verif.decodeAllAsType_show_legible` | propext, Classical.choice, Quot.sound |
| `Verif.decodeAllAsType_shown` | propext, Classical.choice, Quot.sound |
| `Verif.decodeAllAsType_signs` | propext, Classical.choice, Quot.sound |
| `Verif.decodeAllAsType_signs_ss58` | propext, Classical.choice, Quot.sound |
| `Verif.decodeAllAsType_sound` | propext, Classical.choice, Quot.sound |
| `Verif.decodeAllAsType_surplus` | propext, Classical.choice, Quot.sound |
| `Verif.decodeAllAsType_surplus_iff` | propext, Classical.choice, Quot.sound |
| `Verif.decodeAllAsType_unforged` | propext, Classical.choice, Quot.sound |
| `Verif.decodeAllAsType_unforged_bytes` | propext, Classical.choice, Quot.sound |
| `Verif.decodeAllAsType_upgraded` | propext, Classical.choice, Quot.sound |
| `Verif.decodeAllAsType_upgradedBy` | propext, Classical.choice, Quot.sound |
| `Verif.decodeAll_errors_true` | propext, Classical.choice, Quot.sound |
| `Verif.decodeAll_names` | propext, Classical.choice, Quot.sound |
| `Verif.decodeAll_reads_every_byte` | propext, Classical.choice, Quot.sound |
| `Verif.decodeAsCallUnmarked_complete` | propext, Classical.choice, Quot.sound |
| `Verif.decodeAsCallUnmarked_errors_true` | propext, Classical.choice, Quot.sound |
| `Verif.decodeAsCallUnmarked_local` | propext, Classical.choice, Quot.sound |
| `Verif.decodeAsCallUnmarked_not_a_call` | propext, Classical.choice, Quot.sound |
| `Verif.decodeAsCallUnmarked_renumbered` | propext, Classical.choice, Quot.sound |
| `Verif.decodeAsCallUnmarked_shown` | propext, Classical.choice, Quot.sound |
| `Verif.decodeAsCallUnmarked_sound` | propext, Classical.choice, Quot.sound |
| `Verif.decodeAsCallUnmarked_upgraded` | propext, Classical.choice, Quot.sound |
| `Verif.decodeAsCallUnmarked_upgradedBy` | propext, Classical.choice, Quot.sound |
| `Verif.decodeAsCall_calm` | propext, Classical.choice, Quot.sound |
| `Verif.decodeAsCall_complete` | propext, Classical.choice, Quot.sound |
| `Verif.decodeAsCall_confined` | propext, Classical.choice, Quot.sound |
| `Verif.decodeAsCall_errors_true` | propext, Classical.choice, Quot.sound |
| `Verif.decodeAsCall_not_all` | propext, Classical.choice, Quot.sound |
| `Verif.decodeAsCall_renumbered` | propext, Classical.choice, Quot.sound |
| `Verif.decodeAsCall_shortened` | propext, Classical.choice, Quot.sound |
| `Verif.decodeAsCall_shown` | propext, Classical.choice, Quot.sound |
| `Verif.decodeAsCall_sound` | propext, Classical.choice, Quot.sound |
| `Verif.decodeAsTypeAtPositionD_agrees` | propext, Classical.choice, Quot.sound |
| `Verif.decodeAsTypeAtPositionD_converse` | propext, Classical.choice, Quot.sound |
| `Verif.decodeAsTypeAtPositionD_ends` | propext, Classical.choice, Quot.sound |
| `Verif.decodeAsTypeAtPositionD_exact` | propext, Classical.choice, Quot.sound |
| `Verif.decodeAsTypeAtPositionD_labelFree` | propext, Classical.choice, Quot.sound |
| `Verif.decodeAsTypeAtPositionD_plain` | propext, Classical.choice, Quot.sound |
| `Verif.decodeAsTypeAtPositionD_sound` | propext, Classical.choice, Quot.sound |
| `Verif.decodeAsTypeAtPositionD_untrusted` | propext, Classical.choice, Quot.sound |
| `Verif.decodeAsTypeAtPositionD_valueOf` | propext, Classical.choice, Quot.sound |
| `Verif.decodeAsTypeAtPositionD_words` | propext, Classical.choice, Quot.sound |
| `Verif.decodeAsTypeAtPosition_local` | propext, Classical.choice, Quot.sound |
| `Verif.decodeAsTypeAtPosition_renumbered` | propext, Classical.choice, Quot.sound |
| `Verif.decodeAsTypeAtPosition_sound` | propext, Classical.choice, Quot.sound |
| `Verif.decodeAsTypeAtPosition_still` | propext, Classical.choice, Quot.sound |
| `Verif.decodeAsTypeAtPosition_upgraded` | propext, Classical.choice, Quot.sound |
| `Verif.decodeAsTypeAtPosition_upgradedBy` | propext, Classical.choice, Quot.sound |
| `Verif.decodeBitSequence_iff` | propext, Classical.choice, Quot.sound |
| `Verif.decodeD_steady` | propext, Classical.choice, Quot.sound |
| `Verif.decodeExtensionsUnmarkedD_exact` | propext, Classical.choice, Quot.sound |
| `Verif.decodeExtensionsUnmarked_bytes` | propext, Classical.choice, Quot.sound |
| `Verif.decodeExtensionsUnmarked_calm` | propext, Classical.choice, Quot.sound |
| `Verif.decodeExtensionsUnmarked_complete` | propext, Classical.choice, Quot.sound |
| `Verif.decodeExtensionsUnmarked_errors_true` | propext, Classical.choice, Quot.sound |
| `Verif.decodeExtensionsUnmarked_local` | propext, Classical.choice, Quot.sound |
| `Verif.decodeExtensionsUnmarked_renumbered` | propext, Classical.choice, Quot.sound |
| `Verif.decodeExtensionsUnmarked_sound` | propext, Classical.choice, Quot.sound |
| `Verif.decodeExtensionsUnmarked_upgraded` | propext, Classical.choice, Quot.sound |
| `Verif.decodeExtrinsicParams_iff` | propext, Classical.choice, Quot.sound |
| `Verif.decodeShortSpecs_iff` | propext, Classical.choice, Quot.sound |
| `Verif.decodeSignedExt_iff` | propext, Classical.choice, Quot.sound |
| `Verif.decodeSpecNameVersion_iff` | propext, Classical.choice, Quot.sound |
| `Verif.decodeStorageEntry32` | propext, Classical.choice, Quot.sound |
| `Verif.decodeStorageEntryD_agrees` | propext, Classical.choice, Quot.sound |
| `Verif.decodeStorageEntryD_converse` | propext, Classical.choice, Quot.sound |
| `Verif.decodeStorageEntryD_ends` | propext, Classical.choice, Quot.sound |
| `Verif.decodeStorageEntryD_sound` | propext, Classical.choice, Quot.sound |
| `Verif.decodeStorageEntryD_untrusted` | propext, Classical.choice, Quot.sound |
| `Verif.decodeStorageEntryD_valuesOf` | propext, Classical.choice, Quot.sound |
| `Verif.decodeStorageEntryD_words` | propext, Classical.choice, Quot.sound |
| `Verif.decodeStorageEntry_calm` | propext, Classical.choice, Quot.sound |
| `Verif.decodeStorageEntry_complete` | propext, Classical.choice, Quot.sound |
| `Verif.decodeStorageEntry_errors_true` | propext, Classical.choice, Quot.sound |
| `Verif.decodeStorageEntry_mismatch` | propext, Classical.choice, Quot.sound |
| `Verif.decodeStorageEntry_panics` | propext, Classical.choice, Quot.sound |
| `Verif.decodeStorageEntry_plain_long` | propext, Classical.choice, Quot.sound |
| `Verif.decodeStorageEntry_renumbered` | propext, Classical.choice, Quot.sound |
| `Verif.decodeStorageEntry_short` | propext, Classical.choice, Quot.sound |
| `Verif.decodeStorageEntry_shortened` | propext, Classical.choice, Quot.sound |
| `Verif.decodeStorageEntry_sound` | propext, Classical.choice, Quot.sound |
| `Verif.decodeStorageEntry_tuple` | propext, Classical.choice, Quot.sound |
| `Verif.decodeStorageEntry_unused` | propext, Classical.choice, Quot.sound |
| `Verif.decodeStorageEntry_upgraded` | propext, Classical.choice, Quot.sound |
| `Verif.decodeStorageEntry_upgradedBy` | propext, Classical.choice, Quot.sound |
| `Verif.decodeUncheckedExtrinsic32` | propext, Classical.choice, Quot.sound |
| `Verif.decodeUncheckedExtrinsicD_agrees` | propext, Classical.choice, Quot.sound |
| `Verif.decodeUncheckedExtrinsicD_converse` | propext, Classical.choice, Quot.sound |
| `Verif.decodeUncheckedExtrinsicD_ends` | propext, Classical.choice, Quot.sound |
| `Verif.decodeUncheckedExtrinsicD_overflow` | propext, Classical.choice, Quot.sound |
| `Verif.decodeUncheckedExtrinsicD_sound` | propext, Classical.choice, Quot.sound |
| `Verif.decodeUncheckedExtrinsicD_success` | propext, Classical.choice, Quot.sound |
| `Verif.decodeUncheckedExtrinsicD_untrusted` | propext, Classical.choice, Quot.sound |
| `Verif.decodeUncheckedExtrinsicD_valuesOf` | propext, Classical.choice, Quot.sound |
| `Verif.decodeUncheckedExtrinsicD_words` | propext, Classical.choice, Quot.sound |
| `Verif.decodeUncheckedExtrinsic_alike` | propext, Classical.choice, Quot.sound |
| `Verif.decodeUncheckedExtrinsic_call` | propext, Classical.choice, Quot.sound |
| `Verif.decodeUncheckedExtrinsic_calm` | propext, Classical.choice, Quot.sound |
| `Verif.decodeUncheckedExtrinsic_errors_true` | propext, Classical.choice, Quot.sound |
| `Verif.decodeUncheckedExtrinsic_exact` | propext, Classical.choice, Quot.sound |
| `Verif.decodeUncheckedExtrinsic_long` | propext, Classical.choice, Quot.sound |
| `Verif.decodeUncheckedExtrinsic_not_all_used` | propext, Classical.choice, Quot.sound |
| `Verif.decodeUncheckedExtrinsic_renumbered` | propext, Classical.choice, Quot.sound |
| `Verif.decodeUncheckedExtrinsic_short` | propext, Classical.choice, Quot.sound |
| `Verif.decodeUncheckedExtrinsic_shortened` | propext, Classical.choice, Quot.sound |
| `Verif.decodeUncheckedExtrinsic_signed` | propext, Classical.choice, Quot.sound |
| `Verif.decodeUncheckedExtrinsic_sound` | propext, Classical.choice, Quot.sound |
| `Verif.decodeUncheckedExtrinsic_tail` | propext, Classical.choice, Quot.sound |
| `Verif.decodeUncheckedExtrinsic_unsigned` | propext, Classical.choice, Quot.sound |
| `Verif.decodeUncheckedExtrinsic_unsigned_call` | propext, Classical.choice, Quot.sound |
| `Verif.decodeUncheckedExtrinsic_upgraded` | propext, Classical.choice, Quot.sound |
| `Verif.decodeUncheckedExtrinsic_upgradedBy` | propext, Classical.choice, Quot.sound |
| `Verif.decodeUncheckedExtrinsic_version` | propext, Classical.choice, Quot.sound |
| `Verif.decode_any_names` | propext, Classical.choice, Quot.sound |
| `Verif.decode_before` | propext, Classical.choice, Quot.sound |
| `Verif.decode_canonical` | propext, Classical.choice, Quot.sound |
| `Verif.decode_compact_vector` | propext, Classical.choice, Quot.sound |
| `Verif.decode_compactable` | propext, Classical.choice, Quot.sound |
| `Verif.decode_complete` | propext, Classical.choice, Quot.sound |
| `Verif.decode_cyclic` | propext, Classical.choice, Quot.sound |
| `Verif.decode_depth` | propext, Classical.choice, Quot.sound |
| `Verif.decode_docs_ignored` | propext, Classical.choice, Quot.sound |
| `Verif.decode_encode` | propext, Classical.choice, Quot.sound |
| `Verif.decode_encode_inside` | propext, Classical.choice, Quot.sound |
| `Verif.decode_errors_position` | propext, Classical.choice, Quot.sound |
| `Verif.decode_errors_true` | propext, Classical.choice, Quot.sound |
| `Verif.decode_faulty` | propext, Classical.choice, Quot.sound |
| `Verif.decode_faulty_cases` | propext, Classical.choice, Quot.sound |
| `Verif.decode_faulty_exact` | propext, Classical.choice, Quot.sound |
| `Verif.decode_from` | propext, Classical.choice, Quot.sound |
| `Verif.decode_hint_independent` | propext, Classical.choice, Quot.sound |
| `Verif.decode_identifier_independent` | propext, Classical.choice, Quot.sound |
| `Verif.decode_label_dropped` | propext, Classical.choice, Quot.sound |
| `Verif.decode_label_several` | propext, Classical.choice, Quot.sound |
| `Verif.decode_legible` | propext, Classical.choice, Quot.sound |
| `Verif.decode_local` | propext, Classical.choice, Quot.sound |
| `Verif.decode_names` | propext, Classical.choice, Quot.sound |
| `Verif.decode_needs` | propext, Classical.choice, Quot.sound |
| `Verif.decode_nesting` | propext, Classical.choice, Quot.sound |
| `Verif.decode_nesting_unbounded` | propext, Classical.choice, Quot.sound |
| `Verif.decode_never_outOfRange` | propext, Classical.choice, Quot.sound |
| `Verif.decode_no_cycle` | propext, Classical.choice, Quot.sound |
| `Verif.decode_position` | propext, Classical.choice, Quot.sound |
| `Verif.decode_ranged` | propext, Classical.choice, Quot.sound |
| `Verif.decode_reads_every_byte` | propext, Classical.choice, Quot.sound |
| `Verif.decode_reads_inside` | propext, Classical.choice, Quot.sound |
| `Verif.decode_reads_inside_reliable` | propext, Classical.choice, Quot.sound |
| `Verif.decode_recursive` | propext, Classical.choice, Quot.sound |
| `Verif.decode_shift` | propext, Classical.choice, Quot.sound |
| `Verif.decode_shortened` | propext, Classical.choice, Quot.sound |
| `Verif.decode_shown` | propext, Classical.choice, Quot.sound |
| `Verif.decode_size` | propext, Classical.choice, Quot.sound |
| `Verif.decode_sound` | propext, Classical.choice, Quot.sound |
| `Verif.decode_total` | propext, Classical.choice, Quot.sound |
| `Verif.decode_truncated` | propext, Classical.choice, Quot.sound |
| `Verif.decode_typed` | propext, Classical.choice, Quot.sound |
| `Verif.decode_unbounded_output` | propext, Classical.choice, Quot.sound |
| `Verif.decode_uncompactable` | propext, Classical.choice, Quot.sound |
| `Verif.decode_unresolved` | propext, Classical.choice, Quot.sound |
| `Verif.decode_unresolved_true` | propext, Classical.choice, Quot.sound |
| `Verif.enc_ranged` | propext, Classical.choice, Quot.sound |
| `Verif.encode_decode` | propext, Classical.choice, Quot.sound |
| `Verif.encode_decode_inside` | propext, Classical.choice, Quot.sound |
| `Verif.encode_decode_same` | propext, Classical.choice, Quot.sound |
| `Verif.encode_iff_typed` | propext, Classical.choice, Quot.sound |
| `Verif.encoded_typed` | propext, Classical.choice, Quot.sound |
| `Verif.encoding_unambiguous` | propext, Classical.choice, Quot.sound |
| `Verif.era_all_reachable` | propext, Classical.choice, Quot.sound |
| `Verif.era_encode_injective` | propext, Classical.choice, Quot.sound |
| `Verif.era_reencode` | propext, Classical.choice, Quot.sound |
| `Verif.era_roundtrip` | propext, Classical.choice, Quot.sound |
| `Verif.era_wellformed` | propext, Classical.choice, Quot.sound |
| `Verif.error_answered` | propext, Classical.choice, Quot.sound |
| `Verif.error_final` | propext, Classical.choice, Quot.sound |
| `Verif.error_of_beginning` | propext, Classical.choice, Quot.sound |
| `Verif.error_text_extrinsic` | propext, Classical.choice, Quot.sound |
| `Verif.error_text_inner` | propext, Classical.choice, Quot.sound |
| `Verif.error_text_parser` | propext, Classical.choice, Quot.sound |
| `Verif.error_text_parser_own` | propext, Classical.choice, Quot.sound |
| `Verif.error_text_signable` | propext, Classical.choice, Quot.sound |
| `Verif.error_text_storage` | propext, Classical.choice, Quot.sound |
| `Verif.error_text_transaction` | propext, Classical.choice, Quot.sound |
| `Verif.error_text_transaction_call` | propext, Classical.choice, Quot.sound |
| `Verif.error_text_transaction_unmarked` | propext, Classical.choice, Quot.sound |
| `Verif.error_tooShort` | propext, Classical.choice, Quot.sound |
| `Verif.extensions_cost_linear` | propext, Classical.choice, Quot.sound |
| `Verif.extensions_reads_every_byte` | propext, Classical.choice, Quot.sound |
| `Verif.extensions_reads_inside` | propext, Classical.choice, Quot.sound |
| `Verif.extensions_shift` | propext, Classical.choice, Quot.sound |
| `Verif.extrinsic_cost_linear` | propext, Classical.choice, Quot.sound |
| `Verif.extrinsic_size_linear` | propext, Classical.choice, Quot.sound |
| `Verif.extrinsic_written` | propext, Classical.choice, Quot.sound |
| `Verif.field_label_by_name` | propext, Classical.choice, Quot.sound |
| `Verif.field_label_by_type_name` | propext, Classical.choice, Quot.sound |
| `Verif.findCompact_cases` | propext, Classical.choice, Quot.sound |
| `Verif.findCompact_noCompact` | propext, Classical.choice, Quot.sound |
| `Verif.findCompact_outOfRange` | propext, Quot.sound |
| `Verif.findCompact_shortest` | propext, Classical.choice, Quot.sound |
| `Verif.firm_encoding_unique` | propext, Classical.choice, Quot.sound |
| `Verif.flatten_flat` | propext, Classical.choice, Quot.sound |
| `Verif.functions32_same` | propext, Classical.choice, Quot.sound |
| `Verif.getCompact_canonical` | propext, Classical.choice, Quot.sound |
| `Verif.getCompact_roundtrip` | propext, Classical.choice, Quot.sound |
| `Verif.getCompact_roundtrip_at` | propext, Classical.choice, Quot.sound |
| `Verif.handed_label` | propext |
| `Verif.huskType_cyclic` | propext, Classical.choice, Quot.sound |
| `Verif.huskType_faithful` | propext, Classical.choice, Quot.sound |
| `Verif.huskType_iff` | propext, Classical.choice, Quot.sound |
| `Verif.huskType_strips` | propext, Classical.choice, Quot.sound |
| `Verif.huskType_total` | propext, Classical.choice, Quot.sound |
| `Verif.keepsVariants_append` | propext |
| `Verif.keepsVariants_of_indices` | propext, Quot.sound |
| `Verif.markD_overflow` | propext, Classical.choice, Quot.sound |
| `Verif.mark_cases` | Quot.sound |
| `Verif.mark_complete` | propext, Classical.choice, Quot.sound |
| `Verif.mark_errors_true` | propext, Classical.choice, Quot.sound |
| `Verif.mark_partition` | propext, Classical.choice, Quot.sound |
| `Verif.marked_call_reads_inside` | propext, Classical.choice, Quot.sound |
| `Verif.marked_extensions_reads_inside` | propext, Classical.choice, Quot.sound |
| `Verif.metered_flaky` | none |
| `Verif.metered_meters` | none |
| `Verif.nextVersion_same` | propext, Quot.sound |
| `Verif.noU64Bits_check` | propext, Quot.sound |
| `Verif.node_extrinsic_decoded` | propext, Classical.choice, Quot.sound |
| `Verif.node_keys_differ` | propext, Classical.choice, Quot.sound |
| `Verif.node_storage_decoded` | propext, Classical.choice, Quot.sound |
| `Verif.orders_distinct` | propext, Classical.choice, Quot.sound |
| `Verif.parseTransaction32` | propext, Classical.choice, Quot.sound |
| `Verif.parseTransactionD_accepted` | propext, Classical.choice, Quot.sound |
| `Verif.parseTransactionD_agrees` | propext, Classical.choice, Quot.sound |
| `Verif.parseTransactionD_checks` | propext, Classical.choice, Quot.sound |
| `Verif.parseTransactionD_converse` | propext, Classical.choice, Quot.sound |
| `Verif.parseTransactionD_ends` | propext, Classical.choice, Quot.sound |
| `Verif.parseTransactionD_sound` | propext, Classical.choice, Quot.sound |
| `Verif.parseTransactionD_untrusted` | propext, Classical.choice, Quot.sound |
| `Verif.parseTransactionD_valuesOf` | propext, Classical.choice, Quot.sound |
| `Verif.parseTransactionD_words` | propext, Classical.choice, Quot.sound |
| `Verif.parseTransactionUnmarked32` | propext, Classical.choice, Quot.sound |
| `Verif.parseTransactionUnmarkedD_accepted` | propext, Classical.choice, Quot.sound |
| `Verif.parseTransactionUnmarkedD_agrees` | propext, Classical.choice, Quot.sound |
| `Verif.parseTransactionUnmarkedD_converse` | propext, Classical.choice, Quot.sound |
| `Verif.parseTransactionUnmarkedD_ends` | propext, Classical.choice, Quot.sound |
| `Verif.parseTransactionUnmarkedD_sound` | propext, Classical.choice, Quot.sound |
| `Verif.parseTransactionUnmarkedD_untrusted` | propext, Classical.choice, Quot.sound |
| `Verif.parseTransactionUnmarkedD_valuesOf` | propext, Classical.choice, Quot.sound |
| `Verif.parseTransactionUnmarkedD_words` | propext, Classical.choice, Quot.sound |
| `Verif.parseTransactionUnmarked_alike` | propext, Classical.choice, Quot.sound |
| `Verif.parseTransactionUnmarked_cards` | propext, Classical.choice, Quot.sound |
| `Verif.parseTransactionUnmarked_errors_true` | propext, Classical.choice, Quot.sound |
| `Verif.parseTransactionUnmarked_exact` | propext, Classical.choice, Quot.sound |
| `Verif.parseTransactionUnmarked_legible` | propext, Classical.choice, Quot.sound |
| `Verif.parseTransactionUnmarked_marked` | propext, Classical.choice, Quot.sound |
| `Verif.parseTransactionUnmarked_oneLine` | propext, Classical.choice, Quot.sound |
| `Verif.parseTransactionUnmarked_own_display` | propext, Classical.choice, Quot.sound |
| `Verif.parseTransactionUnmarked_parts` | propext, Classical.choice, Quot.sound |
| `Verif.parseTransactionUnmarked_quotes` | propext, Classical.choice, Quot.sound |
| `Verif.parseTransactionUnmarked_reads_every_byte` | propext, Classical.choice, Quot.sound |
| `Verif.parseTransactionUnmarked_renumbered` | propext, Classical.choice, Quot.sound |
| `Verif.parseTransactionUnmarked_shortened` | propext, Classical.choice, Quot.sound |
| `Verif.parseTransactionUnmarked_signs` | propext, Classical.choice, Quot.sound |
| `Verif.parseTransactionUnmarked_sound` | propext, Classical.choice, Quot.sound |
| `Verif.parseTransactionUnmarked_unforged` | propext, Classical.choice, Quot.sound |
| `Verif.parseTransactionUnmarked_unforged_bytes` | propext, Classical.choice, Quot.sound |
| `Verif.parseTransactionUnmarked_upgraded` | propext, Classical.choice, Quot.sound |
| `Verif.parseTransactionUnmarked_upgradedBy` | propext, Classical.choice, Quot.sound |
| `Verif.parseTransaction_alike` | propext, Classical.choice, Quot.sound |
| `Verif.parseTransaction_call_errors_true` | propext, Classical.choice, Quot.sound |
| `Verif.parseTransaction_calm` | propext, Classical.choice, Quot.sound |
| `Verif.parseTransaction_cards` | propext, Classical.choice, Quot.sound |
| `Verif.parseTransaction_complete` | propext, Classical.choice, Quot.sound |
| `Verif.parseTransaction_errors_true` | propext, Classical.choice, Quot.sound |
| `Verif.parseTransaction_exact` | propext, Classical.choice, Quot.sound |
| `Verif.parseTransaction_iff` | propext, Classical.choice, Quot.sound |
| `Verif.parseTransaction_legible` | propext, Classical.choice, Quot.sound |
| `Verif.parseTransaction_marked_iff` | propext, Classical.choice, Quot.sound |
| `Verif.parseTransaction_oneLine` | propext, Classical.choice, Quot.sound |
| `Verif.parseTransaction_own_display` | propext, Classical.choice, Quot.sound |
| `Verif.parseTransaction_parts` | propext, Classical.choice, Quot.sound |
| `Verif.parseTransaction_printed` | propext, Classical.choice, Quot.sound |
| `Verif.parseTransaction_printed_bytes` | propext, Classical.choice, Quot.sound |
| `Verif.parseTransaction_quotes` | propext, Classical.choice, Quot.sound |
| `Verif.parseTransaction_reads_every_byte` | propext, Classical.choice, Quot.sound |
| `Verif.parseTransaction_refuses` | propext, Classical.choice, Quot.sound |
| `Verif.parseTransaction_renumbered` | propext, Classical.choice, Quot.sound |
| `Verif.parseTransaction_shortened` | propext, Classical.choice, Quot.sound |
| `Verif.parseTransaction_signs` | propext, Classical.choice, Quot.sound |
| `Verif.parseTransaction_signs_ss58` | propext, Classical.choice, Quot.sound |
| `Verif.parseTransaction_sound` | propext, Classical.choice, Quot.sound |
| `Verif.parseTransaction_unforged` | propext, Classical.choice, Quot.sound |
| `Verif.parseTransaction_unforged_bytes` | propext, Classical.choice, Quot.sound |
| `Verif.parseTransaction_upgraded` | propext, Classical.choice, Quot.sound |
| `Verif.parseTransaction_upgradedBy` | propext, Classical.choice, Quot.sound |
| `Verif.parsed_written` | propext, Classical.choice, Quot.sound |
| `Verif.patch_agrees` | propext, Classical.choice, Quot.sound |
| `Verif.patch_agrees_iff` | propext, Classical.choice, Quot.sound |
| `Verif.patch_loses` | propext, Classical.choice, Quot.sound |
| `Verif.patch_misreads` | propext, Classical.choice, Quot.sound |
| `Verif.patch_panics` | propext, Classical.choice, Quot.sound |
| `Verif.patch_short` | propext, Classical.choice, Quot.sound |
| `Verif.patch_sound` | propext, Classical.choice, Quot.sound |
| `Verif.pickVariant_iff` | propext, Quot.sound |
| `Verif.pickVariant_perm` | propext, Quot.sound |
| `Verif.pickVariant_unknown` | propext, Classical.choice, Quot.sound |
| `Verif.pieces_array` | propext, Classical.choice, Quot.sound |
| `Verif.pieces_call` | propext, Classical.choice, Quot.sound |
| `Verif.pieces_enum` | propext, Classical.choice, Quot.sound |
| `Verif.pieces_extensions` | propext, Classical.choice, Quot.sound |
| `Verif.pieces_extrinsic` | propext, Classical.choice, Quot.sound |
| `Verif.pieces_pallet` | propext, Classical.choice, Quot.sound |
| `Verif.pieces_signature` | propext, Classical.choice, Quot.sound |
| `Verif.pieces_struct` | propext, Classical.choice, Quot.sound |
| `Verif.pieces_transaction` | propext, Classical.choice, Quot.sound |
| `Verif.pieces_transaction_unmarked` | propext, Classical.choice, Quot.sound |
| `Verif.pieces_tuple` | propext, Classical.choice, Quot.sound |
| `Verif.pieces_vector` | propext, Classical.choice, Quot.sound |
| `Verif.plainTexts_clear` | propext, Classical.choice, Quot.sound |
| `Verif.polkadot_32bit` | propext, Classical.choice, Quot.sound |
| `Verif.polkadot_account` | propext, Classical.choice, Quot.sound |
| `Verif.polkadot_account_accepted` | propext, Classical.choice, Quot.sound |
| `Verif.polkadot_account_only` | propext, Classical.choice, Quot.sound |
| `Verif.polkadot_account_screen` | propext, Classical.choice, Quot.sound |
| `Verif.polkadot_account_screen_only` | propext, Classical.choice, Quot.sound |
| `Verif.polkadot_extrinsic` | propext, Classical.choice, Quot.sound |
| `Verif.polkadot_metadata` | propext, Classical.choice, Quot.sound |
| `Verif.polkadot_oneChain` | propext, Classical.choice, Quot.sound |
| `Verif.polkadot_printed` | propext, Classical.choice, Quot.sound |
| `Verif.polkadot_registry` | propext, Classical.choice, Quot.sound |
| `Verif.polkadot_remark` | propext, Classical.choice, Quot.sound |
| `Verif.polkadot_remark_screen` | propext, Classical.choice, Quot.sound |
| `Verif.polkadot_remark_screen_only` | propext, Classical.choice, Quot.sound |
| `Verif.polkadot_remark_unforgeable` | propext, Classical.choice, Quot.sound |
| `Verif.polkadot_remark_unforged` | propext, Classical.choice, Quot.sound |
| `Verif.polkadot_screen` | propext, Classical.choice, Quot.sound |
| `Verif.polkadot_screen_only` | propext, Classical.choice, Quot.sound |
| `Verif.polkadot_signs` | propext, Classical.choice, Quot.sound |
| `Verif.polkadot_submitted` | propext, Classical.choice, Quot.sound |
| `Verif.polkadot_transaction` | propext, Classical.choice, Quot.sound |
| `Verif.polkadot_transfer` | propext, Classical.choice, Quot.sound |
| `Verif.polkadot_transfer_printed` | propext, Classical.choice, Quot.sound |
| `Verif.polkadot_transfer_unforged` | propext, Classical.choice, Quot.sound |
| `Verif.polkadot_unforged` | propext, Classical.choice, Quot.sound |
| `Verif.polkadot_unmarked` | propext, Classical.choice, Quot.sound |
| `Verif.polkadot_values` | propext, Classical.choice, Quot.sound |
| `Verif.posAsCallUnmarkedD_ahead` | propext, Classical.choice, Quot.sound |
| `Verif.posAsCallUnmarkedD_located` | propext, Classical.choice, Quot.sound |
| `Verif.posAsCallUnmarkedD_outcome` | propext, Classical.choice, Quot.sound |
| `Verif.posAsTypeD_ahead` | propext, Classical.choice, Quot.sound |
| `Verif.posAsTypeD_located` | propext, Classical.choice, Quot.sound |
| `Verif.posAsTypeD_outcome` | propext, Classical.choice, Quot.sound |
| `Verif.posAsTypeD_total` | propext, Classical.choice, Quot.sound |
| `Verif.posExtensionsUnmarkedD_ahead` | propext, Classical.choice, Quot.sound |
| `Verif.posExtensionsUnmarkedD_located` | propext, Classical.choice, Quot.sound |
| `Verif.posExtensionsUnmarkedD_outcome` | propext, Classical.choice, Quot.sound |
| `Verif.position_after_error` | propext, Classical.choice, Quot.sound |
| `Verif.position_call` | propext, Classical.choice, Quot.sound |
| `Verif.position_extensions` | propext, Classical.choice, Quot.sound |
| `Verif.position_forward` | propext, Classical.choice, Quot.sound |
| `Verif.position_outcome` | propext, Classical.choice, Quot.sound |
| `Verif.position_total` | propext, Classical.choice, Quot.sound |
| `Verif.position_transaction` | propext, Classical.choice, Quot.sound |
| `Verif.processParams_eq` | propext, Classical.choice, Quot.sound |
| `Verif.quiet_all` | propext, Classical.choice, Quot.sound |
| `Verif.quiet_extrinsic` | propext, Classical.choice, Quot.sound |
| `Verif.quiet_storage` | propext, Classical.choice, Quot.sound |
| `Verif.quiet_transaction` | propext, Classical.choice, Quot.sound |
| `Verif.quiet_unmarked` | propext, Classical.choice, Quot.sound |
| `Verif.quiet_value` | propext, Classical.choice, Quot.sound |
| `Verif.ranked_budget` | propext, Classical.choice, Quot.sound |
| `Verif.ranked_toll` | propext, Quot.sound |
| `Verif.retry_extrinsic` | propext, Classical.choice, Quot.sound |
| `Verif.retry_labelFree` | propext, Classical.choice, Quot.sound |
| `Verif.retry_storage` | propext, Classical.choice, Quot.sound |
| `Verif.retry_transaction` | propext, Classical.choice, Quot.sound |
| `Verif.retry_unmarked` | propext, Classical.choice, Quot.sound |
| `Verif.retry_value` | propext, Classical.choice, Quot.sound |
| `Verif.sameRuntime_alike` | propext, Classical.choice, Quot.sound |
| `Verif.scripted_flaky` | none |
| `Verif.scripted_tires` | propext, Quot.sound |
| `Verif.showAll_injective` | propext, Classical.choice, Quot.sound |
| `Verif.showWithDocs_eq` | propext, Quot.sound |
| `Verif.showWithDocs_text` | propext, Classical.choice, Quot.sound |
| `Verif.show_forged` | propext, Classical.choice, Quot.sound |
| `Verif.show_injective` | propext, Classical.choice, Quot.sound |
| `Verif.show_line` | propext, Classical.choice, Quot.sound |
| `Verif.show_lineCount` | propext, Classical.choice, Quot.sound |
| `Verif.show_oneLine_iff` | propext, Classical.choice, Quot.sound |
| `Verif.show_prefix` | propext, Classical.choice, Quot.sound |
| `Verif.shown_iff_typed` | propext, Classical.choice, Quot.sound |
| `Verif.signed_as_submitted` | propext, Classical.choice, Quot.sound |
| `Verif.sizes_documented` | propext |
| `Verif.solidVectors_check` | propext, Classical.choice, Quot.sound |
| `Verif.specNameVersionOf_errors` | propext, Classical.choice, Quot.sound |
| `Verif.specNameVersionOf_iff` | propext, Classical.choice, Quot.sound |
| `Verif.specNameVersionOf_sound` | propext, Classical.choice, Quot.sound |
| `Verif.ss58_faithful` | propext, Classical.choice, Quot.sound |
| `Verif.ss58_injective` | propext, Classical.choice, Quot.sound |
| `Verif.ss58_key` | propext, Classical.choice, Quot.sound |
| `Verif.ss58_prefix_mod` | propext, Classical.choice, Quot.sound |
| `Verif.storage_cost_linear` | propext, Classical.choice, Quot.sound |
| `Verif.storage_prefix_ignored` | propext, Classical.choice, Quot.sound |
| `Verif.storage_rebuilt` | propext, Classical.choice, Quot.sound |
| `Verif.storage_shown_determines` | propext, Classical.choice, Quot.sound |
| `Verif.storage_size_linear` | propext, Classical.choice, Quot.sound |
| `Verif.stored_bitsEnc` | propext |
| `Verif.stored_once` | propext, Classical.choice, Quot.sound |
| `Verif.struct_field_label` | propext, Classical.choice, Quot.sound |
| `Verif.submitted_as_signed` | propext, Classical.choice, Quot.sound |
| `Verif.transactionUnmarked_cost_linear` | propext, Classical.choice, Quot.sound |
| `Verif.transaction_any_call` | propext, Classical.choice, Quot.sound |
| `Verif.transaction_any_extensions` | propext, Classical.choice, Quot.sound |
| `Verif.transaction_cards_linear` | propext, Classical.choice, Quot.sound |
| `Verif.transaction_cost_linear` | propext, Classical.choice, Quot.sound |
| `Verif.transaction_names` | propext, Classical.choice, Quot.sound |
| `Verif.transaction_oneChain` | propext, Classical.choice, Quot.sound |
| `Verif.transaction_oneVersion` | propext, Classical.choice, Quot.sound |
| `Verif.transaction_otherVersion` | propext, Classical.choice, Quot.sound |
| `Verif.transaction_size_linear` | propext, Classical.choice, Quot.sound |
| `Verif.typed_encoded` | propext, Classical.choice, Quot.sound |
| `Verif.typed_one_data` | propext, Classical.choice, Quot.sound |
| `Verif.unmarked_oneChain` | propext, Classical.choice, Quot.sound |
| `Verif.unmarked_otherVersion` | propext, Classical.choice, Quot.sound |
| `Verif.unmarked_size_linear` | propext, Classical.choice, Quot.sound |
| `Verif.upgradedBy_of_lists` | propext |
| `Verif.upgraded_of_lists` | propext |
| `Verif.usize64_fits` | propext, Quot.sound |
| `Verif.v14_renumbered` | propext, Classical.choice, Quot.sound |
| `Verif.v14_v15_alike` | propext, Classical.choice, Quot.sound |
| `Verif.v15_renumbered` | propext, Classical.choice, Quot.sound |
| `Verif.value_cards_linear` | propext, Classical.choice, Quot.sound |
| `Verif.value_cost_consumed` | propext, Classical.choice, Quot.sound |
| `Verif.value_cost_linear` | propext, Classical.choice, Quot.sound |
| `Verif.value_cost_ranked` | propext, Classical.choice, Quot.sound |
| `Verif.value_size_largest` | propext, Classical.choice, Quot.sound |
| `Verif.value_size_linear` | propext, Classical.choice, Quot.sound |
| `Verif.verdict_proper` | propext, Classical.choice, Quot.sound |
| `Verif.wallet_decides` | propext, Quot.sound |
| `Verif.wallet_parsed` | propext, Classical.choice, Quot.sound |
| `Verif.wallet_parsed_unmarked` | propext, Classical.choice, Quot.sound |
| `Verif.watching_counts` | propext, Classical.choice, Quot.sound |
| `Verif.westend_32bit` | propext, Classical.choice, Quot.sound |
| `Verif.westend_account` | propext, Classical.choice, Quot.sound |
| `Verif.westend_account_accepted` | propext, Classical.choice, Quot.sound |
| `Verif.westend_account_only` | propext, Classical.choice, Quot.sound |
| `Verif.westend_account_screen` | propext, Classical.choice, Quot.sound |
| `Verif.westend_account_screen_only` | propext, Classical.choice, Quot.sound |
| `Verif.westend_cost` | propext, Classical.choice, Quot.sound |
| `Verif.westend_extrinsic` | propext, Classical.choice, Quot.sound |
| `Verif.westend_metadata` | propext, Classical.choice, Quot.sound |
| `Verif.westend_oneChain` | propext, Classical.choice, Quot.sound |
| `Verif.westend_orders` | propext, Classical.choice, Quot.sound |
| `Verif.westend_orders_only` | propext, Classical.choice, Quot.sound |
| `Verif.westend_orders_printed` | propext, Classical.choice, Quot.sound |
| `Verif.westend_orders_screen` | propext, Classical.choice, Quot.sound |
| `Verif.westend_printed` | propext, Classical.choice, Quot.sound |
| `Verif.westend_registry` | propext, Classical.choice, Quot.sound |
| `Verif.westend_screen` | propext, Classical.choice, Quot.sound |
| `Verif.westend_screen_only` | propext, Classical.choice, Quot.sound |
| `Verif.westend_signs` | propext, Classical.choice, Quot.sound |
| `Verif.westend_size` | propext, Classical.choice, Quot.sound |
| `Verif.westend_submitted` | propext, Classical.choice, Quot.sound |
| `Verif.westend_transaction` | propext, Classical.choice, Quot.sound |
| `Verif.westend_transfer` | propext, Classical.choice, Quot.sound |
| `Verif.westend_unforged` | propext, Classical.choice, Quot.sound |
| `Verif.westend_unmarked` | propext, Classical.choice, Quot.sound |
| `Verif.westend_values` | propext, Classical.choice, Quot.sound |
| `Verif.whole_value_cost_linear` | propext, Classical.choice, Quot.sound |
| `Verif.whole_value_size_linear` | propext, Classical.choice, Quot.sound |
| `Verif.with_decode` | propext, Classical.choice, Quot.sound |
| `Verif.wrapSequence_bytes` | propext |
| `Verif.wrapSequence_lossless` | propext, Quot.sound |
| `Verif.wrapSequence_uints` | propext |
