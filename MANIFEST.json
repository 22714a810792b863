{
 "claims": [
  {
   "property": "C01",
   "status": "proved",
   "theorems": [
    "Verif.decode_sound",
    "Verif.decodeAsTypeAtPosition_sound",
    "Verif.decodeAllAsType_sound"
   ],
   "note": ""
  },
  {
   "property": "C02",
   "status": "proved",
   "theorems": [
    "Verif.decode_complete",
    "Verif.decodeAllAsType_complete",
    "Verif.encoding_unambiguous"
   ],
   "note": ""
  },
  {
   "property": "C03",
   "status": "proved",
   "theorems": [
    "Verif.decode_total",
    "Verif.decode_recursive",
    "Verif.decode_cyclic",
    "Verif.huskType_total"
   ],
   "note": ""
  },
  {
   "property": "C04",
   "status": "proved",
   "theorems": [
    "Verif.decode_total"
   ],
   "note": ""
  },
  {
   "property": "C05",
   "status": "proved",
   "theorems": [
    "Verif.decode_position"
   ],
   "note": ""
  },
  {
   "property": "C06",
   "status": "proved",
   "theorems": [
    "Verif.decode_local"
   ],
   "note": ""
  },
  {
   "property": "C07",
   "status": "proved",
   "theorems": [
    "Verif.decode_truncated"
   ],
   "note": ""
  },
  {
   "property": "C08",
   "status": "proved",
   "theorems": [
    "Verif.decode_hint_independent",
    "Verif.decode_identifier_independent"
   ],
   "note": ""
  },
  {
   "property": "C09",
   "status": "proved",
   "theorems": [
    "Verif.decode_faulty",
    "Verif.decode_faulty_cases",
    "Verif.decode_faulty_exact"
   ],
   "note": ""
  },
  {
   "property": "C10",
   "status": "proved",
   "theorems": [
    "Verif.decodeAllAsType_iff",
    "Verif.decodeAllAsType_surplus_iff",
    "Verif.decodeAllAsType_surplus",
    "Verif.decodeAllAsType_not_all"
   ],
   "note": ""
  },
  {
   "property": "C11",
   "status": "proved",
   "theorems": [
    "Verif.getCompact_roundtrip",
    "Verif.getCompact_roundtrip_at"
   ],
   "note": ""
  },
  {
   "property": "C12",
   "status": "proved",
   "theorems": [
    "Verif.getCompact_canonical",
    "Verif.compactDecode_rejects"
   ],
   "note": ""
  },
  {
   "property": "C13",
   "status": "proved",
   "theorems": [
    "Verif.findCompact_outOfRange",
    "Verif.findCompact_noCompact",
    "Verif.findCompact_cases",
    "Verif.findCompact_shortest"
   ],
   "note": ""
  },
  {
   "property": "C14",
   "status": "proved",
   "theorems": [
    "Verif.era_roundtrip",
    "Verif.era_reencode",
    "Verif.era_encode_injective"
   ],
   "note": ""
  },
  {
   "property": "C15",
   "status": "proved",
   "theorems": [
    "Verif.era_wellformed",
    "Verif.era_all_reachable"
   ],
   "note": ""
  },
  {
   "property": "C16",
   "status": "proved",
   "theorems": [
    "Verif.enc_ranged",
    "Verif.decode_ranged",
    "Verif.decodeAllAsType_ranged",
    "Verif.sizes_documented"
   ],
   "note": ""
  },
  {
   "property": "C17",
   "status": "proved",
   "theorems": [
    "Verif.decode_compactable",
    "Verif.decode_uncompactable",
    "Verif.decode_compact_vector"
   ],
   "note": ""
  },
  {
   "property": "C18",
   "status": "proved",
   "theorems": [
    "Verif.pickVariant_iff",
    "Verif.pickVariant_unknown",
    "Verif.pickVariant_perm"
   ],
   "note": ""
  },
  {
   "property": "C19",
   "status": "proved",
   "theorems": [
    "Verif.wrapSequence_lossless",
    "Verif.wrapSequence_uints",
    "Verif.wrapSequence_bytes"
   ],
   "note": ""
  },
  {
   "property": "C20",
   "status": "proved",
   "theorems": [
    "Verif.decodeBitSequence_iff",
    "Verif.bitsEnc_length",
    "Verif.bitsEnc_unique"
   ],
   "note": ""
  },
  {
   "property": "C21",
   "status": "proved",
   "theorems": [
    "Verif.patch_agrees_iff",
    "Verif.patch_agrees",
    "Verif.patch_panics",
    "Verif.patch_short",
    "Verif.patch_sound",
    "Verif.stored_bitsEnc",
    "Verif.bitsEnc_stored",
    "Verif.patch_loses",
    "Verif.patch_misreads"
   ],
   "note": "The naive expectation (always equal to the 64-bit decoder) is false and refuted; the property as restated is proved."
  },
  {
   "property": "C22",
   "status": "proved",
   "theorems": [
    "Verif.mark_partition",
    "Verif.mark_complete",
    "Verif.mark_cases"
   ],
   "note": ""
  },
  {
   "property": "C23",
   "status": "proved",
   "theorems": [
    "Verif.decodeAsCall_sound",
    "Verif.decodeAsCall_confined",
    "Verif.decodeAsCall_complete",
    "Verif.decodeAsCall_not_all",
    "Verif.decodeAsCall_calm"
   ],
   "note": ""
  },
  {
   "property": "C24",
   "status": "proved",
   "theorems": [
    "Verif.decodeAsCallUnmarked_sound",
    "Verif.decodeAsCallUnmarked_not_a_call",
    "Verif.decodeAsCallUnmarked_complete"
   ],
   "note": ""
  },
  {
   "property": "C25",
   "status": "proved",
   "theorems": [
    "Verif.decodeExtensionsUnmarked_sound",
    "Verif.decodeExtensionsUnmarked_complete",
    "Verif.decodeExtensionsUnmarked_local",
    "Verif.decodeExtensionsUnmarked_calm"
   ],
   "note": ""
  },
  {
   "property": "C26",
   "status": "proved",
   "theorems": [
    "Verif.checkExtensions_iff",
    "Verif.decodeExtensionsUnmarked_sound",
    "Verif.decodeExtensionsUnmarked_bytes",
    "Verif.checkExtensions_noSpecVersion",
    "Verif.checkExtensions_wrongSpecVersion"
   ],
   "note": ""
  },
  {
   "property": "C27",
   "status": "proved",
   "theorems": [
    "Verif.checkExtensions_iff",
    "Verif.decodeExtensionsUnmarked_sound",
    "Verif.decodeExtensionsUnmarked_bytes",
    "Verif.checkExtensions_wrongGenesisHash"
   ],
   "note": ""
  },
  {
   "property": "C28",
   "status": "proved",
   "theorems": [
    "Verif.checkExtensions_iff",
    "Verif.decodeExtensionsUnmarked_sound",
    "Verif.decodeExtensionsUnmarked_bytes",
    "Verif.checkExtensions_immortalMismatch"
   ],
   "note": ""
  },
  {
   "property": "C29",
   "status": "proved",
   "theorems": [
    "Verif.parseTransaction_sound",
    "Verif.parseTransaction_complete",
    "Verif.parseTransaction_iff",
    "Verif.parseTransaction_calm",
    "Verif.parseTransactionUnmarked_sound"
   ],
   "note": ""
  },
  {
   "property": "C30",
   "status": "proved",
   "theorems": [
    "Verif.decodeUncheckedExtrinsic_sound",
    "Verif.decodeUncheckedExtrinsic_short",
    "Verif.decodeUncheckedExtrinsic_long",
    "Verif.decodeUncheckedExtrinsic_version",
    "Verif.decodeUncheckedExtrinsic_signed",
    "Verif.decodeUncheckedExtrinsic_unsigned",
    "Verif.decodeUncheckedExtrinsic_calm"
   ],
   "note": ""
  },
  {
   "property": "C31",
   "status": "proved",
   "theorems": [
    "Verif.decodeUncheckedExtrinsic_tail",
    "Verif.decodeUncheckedExtrinsic_not_all_used",
    "Verif.decodeUncheckedExtrinsic_sound"
   ],
   "note": "The naive expectation (all bytes used) is false and refuted; the property as restated is proved."
  },
  {
   "property": "C32",
   "status": "proved",
   "theorems": [
    "Verif.decodeStorageEntry_sound",
    "Verif.decodeStorageEntry_complete",
    "Verif.decodeStorageEntry_short",
    "Verif.decodeStorageEntry_plain_long",
    "Verif.decodeStorageEntry_unused",
    "Verif.decodeStorageEntry_tuple"
   ],
   "note": ""
  },
  {
   "property": "C33",
   "status": "proved",
   "theorems": [
    "Verif.decodeStorageEntry_sound",
    "Verif.decodeStorageEntry_complete",
    "Verif.decodeStorageEntry_mismatch",
    "Verif.checkHash_mismatch"
   ],
   "note": ""
  },
  {
   "property": "C34",
   "status": "proved",
   "theorems": [
    "Verif.decodeStorageEntry_calm",
    "Verif.decodeStorageEntry_panics"
   ],
   "note": "Panic possible only if external memory of the key fails; witness given."
  },
  {
   "property": "C35",
   "status": "proved",
   "theorems": [
    "Verif.balance_value",
    "Verif.balance_injective"
   ],
   "note": ""
  },
  {
   "property": "C36",
   "status": "proved",
   "theorems": [
    "Verif.balance_form"
   ],
   "note": ""
  },
  {
   "property": "C37",
   "status": "proved",
   "theorems": [
    "Verif.card_drawn",
    "Verif.card_leaves",
    "Verif.call_leaves",
    "Verif.decodeAllAsType_cards",
    "Verif.parseTransaction_cards",
    "Verif.parseTransactionUnmarked_cards"
   ],
   "note": ""
  },
  {
   "property": "C38",
   "status": "proved",
   "theorems": [
    "Verif.card_drawn",
    "Verif.card_indented",
    "Verif.call_indented"
   ],
   "note": ""
  },
  {
   "property": "C39",
   "status": "proved",
   "theorems": [
    "Verif.card_balance",
    "Verif.call_balance",
    "Verif.card_amounts",
    "Verif.parseTransaction_cards"
   ],
   "note": ""
  },
  {
   "property": "C40",
   "status": "proved",
   "theorems": [
    "Verif.field_label_by_name",
    "Verif.field_label_by_type_name",
    "Verif.struct_field_label",
    "Verif.decode_shown"
   ],
   "note": ""
  },
  {
   "property": "C41",
   "status": "proved",
   "theorems": [
    "Verif.decode_label_dropped",
    "Verif.decode_label_several",
    "Verif.handed_label",
    "Verif.decode_shown"
   ],
   "note": ""
  },
  {
   "property": "C42",
   "status": "proved",
   "theorems": [
    "Verif.specNameVersionOf_iff",
    "Verif.specNameVersionOf_sound",
    "Verif.specNameVersionOf_errors",
    "Verif.V14_specNameVersion_iff",
    "Verif.V15_specNameVersion_iff",
    "Verif.V14_metadata_calm",
    "Verif.V15_metadata_calm"
   ],
   "note": ""
  },
  {
   "property": "C43",
   "status": "proved",
   "theorems": [
    "Verif.V14_extrinsicTypeParams_iff",
    "Verif.V14_extrinsicTypeParams_missing",
    "Verif.V14_extrinsicTypeParams_unexpected",
    "Verif.V14_callTy_iff",
    "Verif.processParams_eq"
   ],
   "note": ""
  },
  {
   "property": "C44",
   "status": "proved",
   "theorems": [
    "Verif.huskType_faithful",
    "Verif.huskType_strips",
    "Verif.huskType_iff",
    "Verif.huskType_cyclic"
   ],
   "note": ""
  },
  {
   "property": "C45",
   "status": "proved",
   "theorems": [
    "Verif.decode_unresolved",
    "Verif.decode_needs"
   ],
   "note": ""
  },
  {
   "property": "C46",
   "status": "proved",
   "theorems": [
    "Verif.decode_unbounded_output"
   ],
   "note": ""
  },
  {
   "property": "C47",
   "status": "proved",
   "theorems": [
    "Verif.show_lineCount",
    "Verif.show_oneLine_iff",
    "Verif.show_injective",
    "Verif.showAll_injective",
    "Verif.show_forged",
    "Verif.show_prefix",
    "Verif.showWithDocs_eq",
    "Verif.show_line",
    "Verif.showWithDocs_text"
   ],
   "note": "The naive expectation (one line per card) is false and refuted; the property as restated is proved."
  },
  {
   "property": "C48",
   "status": "proved",
   "theorems": [
    "Verif.decode_shown",
    "Verif.decodeAllAsType_shown",
    "Verif.flatten_flat",
    "Verif.decodeAsCallUnmarked_shown",
    "Verif.decodeAsCall_shown"
   ],
   "note": ""
  },
  {
   "property": "C49",
   "status": "proved",
   "theorems": [
    "Verif.decode_errors_true",
    "Verif.decodeAll_errors_true",
    "Verif.decode_errors_position",
    "Verif.decode_unresolved_true",
    "Verif.decode_no_cycle"
   ],
   "note": ""
  },
  {
   "property": "C50",
   "status": "proved",
   "theorems": [
    "Verif.firm_encoding_unique",
    "Verif.decode_canonical",
    "Verif.decodeAllAsType_canonical"
   ],
   "note": ""
  },
  {
   "property": "C51",
   "status": "proved",
   "theorems": [
    "Verif.parseTransactionUnmarked_alike",
    "Verif.parseTransaction_alike",
    "Verif.decodeUncheckedExtrinsic_alike",
    "Verif.sameRuntime_alike",
    "Verif.v14_v15_alike"
   ],
   "note": ""
  },
  {
   "property": "C52",
   "status": "proved",
   "theorems": [
    "Verif.decode_legible",
    "Verif.decodeAllAsType_legible",
    "Verif.decodeAllAsType_signs",
    "Verif.decodeAllAsType_show_legible",
    "Verif.parseTransaction_legible",
    "Verif.parseTransaction_signs",
    "Verif.parseTransactionUnmarked_legible",
    "Verif.parseTransactionUnmarked_signs",
    "Verif.decodeAllAsType_signs_ss58",
    "Verif.parseTransaction_signs_ss58"
   ],
   "note": ""
  },
  {
   "property": "C53",
   "status": "proved",
   "theorems": [
    "Verif.decode_shortened",
    "Verif.decodeAllAsType_shortened",
    "Verif.decodeAsCall_shortened",
    "Verif.parseTransactionUnmarked_shortened",
    "Verif.parseTransaction_shortened",
    "Verif.decodeUncheckedExtrinsic_shortened",
    "Verif.decodeStorageEntry_shortened"
   ],
   "note": "Conditions on the full registry (distinct indices, nameless arrays) and on the shortening (no enum emptied) are in the property; examples show what goes wrong without them."
  },
  {
   "property": "C54",
   "status": "proved",
   "theorems": [
    "Verif.parseTransaction_marked_iff",
    "Verif.parseTransactionUnmarked_marked",
    "Verif.decodeAsCallUnmarked_local",
    "Verif.decodeUncheckedExtrinsic_call",
    "Verif.decodeUncheckedExtrinsic_unsigned_call",
    "Verif.call_types_agree"
   ],
   "note": ""
  },
  {
   "property": "C55",
   "status": "proved",
   "theorems": [
    "Verif.decode_nesting",
    "Verif.decode_depth",
    "Verif.decode_nesting_unbounded"
   ],
   "note": ""
  },
  {
   "property": "C56",
   "status": "proved",
   "theorems": [
    "Verif.decodeExtensionsUnmarked_errors_true",
    "Verif.decodeAsCallUnmarked_errors_true",
    "Verif.decodeAsCall_errors_true",
    "Verif.mark_errors_true",
    "Verif.parseTransaction_errors_true",
    "Verif.parseTransaction_call_errors_true",
    "Verif.parseTransactionUnmarked_errors_true",
    "Verif.decodeUncheckedExtrinsic_errors_true",
    "Verif.decodeStorageEntry_errors_true"
   ],
   "note": "Errors of the metadata functions themselves are covered case by case in C42 and C43."
  },
  {
   "property": "C57",
   "status": "proved",
   "theorems": [
    "Verif.decodeAsTypeAtPositionD_ends",
    "Verif.decodeAllAsTypeD_ends",
    "Verif.decodeAsTypeAtPositionD_sound",
    "Verif.decodeAllAsTypeD_sound",
    "Verif.scripted_flaky",
    "Verif.decodeD_steady",
    "Verif.decodeAllAsTypeD_steady"
   ],
   "note": ""
  },
  {
   "property": "C58",
   "status": "proved",
   "theorems": [
    "Verif.decodeAsTypeAtPositionD_plain",
    "Verif.decodeAsTypeAtPositionD_agrees",
    "Verif.decodeAllAsTypeD_agrees",
    "Verif.decodeAsTypeAtPositionD_exact",
    "Verif.decodeAsTypeAtPositionD_converse",
    "Verif.decodeAsTypeAtPositionD_labelFree"
   ],
   "note": ""
  },
  {
   "property": "C59",
   "status": "proved",
   "theorems": [
    "Verif.decodeAsTypeAtPositionD_words",
    "Verif.parseTransactionD_words",
    "Verif.parseTransactionUnmarkedD_words",
    "Verif.decodeUncheckedExtrinsicD_words",
    "Verif.decodeStorageEntryD_words",
    "Verif.usize64_fits",
    "Verif.markD_overflow",
    "Verif.decodeUncheckedExtrinsicD_overflow",
    "Verif.decodeUncheckedExtrinsicD_success"
   ],
   "note": "Arithmetic only; the other code that 32-bit targets have for bit sequences with u64 store is C21 and C67."
  },
  {
   "property": "C60",
   "status": "proved",
   "theorems": [
    "Verif.parseTransactionD_ends",
    "Verif.parseTransactionD_sound",
    "Verif.parseTransactionUnmarkedD_ends",
    "Verif.parseTransactionUnmarkedD_sound",
    "Verif.decodeUncheckedExtrinsicD_ends",
    "Verif.decodeUncheckedExtrinsicD_sound",
    "Verif.decodeStorageEntryD_ends",
    "Verif.decodeStorageEntryD_sound",
    "Verif.parseTransactionD_checks"
   ],
   "note": ""
  },
  {
   "property": "C61",
   "status": "proved",
   "theorems": [
    "Verif.parseTransactionD_agrees",
    "Verif.parseTransactionD_converse",
    "Verif.parseTransactionUnmarkedD_agrees",
    "Verif.decodeUncheckedExtrinsicD_agrees",
    "Verif.decodeStorageEntryD_agrees",
    "Verif.decodeExtensionsUnmarkedD_exact",
    "Verif.parseTransactionUnmarkedD_converse",
    "Verif.decodeUncheckedExtrinsicD_converse",
    "Verif.decodeStorageEntryD_converse"
   ],
   "note": "hypotheses on the registry checked by Props/Checkers; they hold of the metadata in /repo/for_tests"
  },
  {
   "property": "C62",
   "status": "proved",
   "theorems": [
    "Verif.decodeAsTypeAtPosition_renumbered",
    "Verif.decodeAllAsType_renumbered",
    "Verif.decodeAsTypeAtPosition_local",
    "Verif.decodeAllAsType_local",
    "Verif.decodeAsCallUnmarked_renumbered",
    "Verif.decodeAsCall_renumbered",
    "Verif.decodeExtensionsUnmarked_renumbered",
    "Verif.parseTransactionUnmarked_renumbered",
    "Verif.parseTransaction_renumbered",
    "Verif.decodeUncheckedExtrinsic_renumbered",
    "Verif.decodeStorageEntry_renumbered",
    "Verif.v14_renumbered",
    "Verif.v15_renumbered"
   ],
   "note": "Equalities of outcomes, errors included. The types that count are those of Spec.Seen; nothing is asked of the others. Type parameters count only for V14 metadata (parts of the extrinsic)."
  },
  {
   "property": "C63",
   "status": "proved",
   "theorems": [
    "Verif.position_outcome",
    "Verif.position_total",
    "Verif.position_forward",
    "Verif.position_after_error",
    "Verif.position_call",
    "Verif.position_extensions",
    "Verif.position_transaction"
   ],
   "note": ""
  },
  {
   "property": "C64",
   "status": "proved",
   "theorems": [
    "Verif.error_text_inner",
    "Verif.error_text_parser_own",
    "Verif.error_text_parser",
    "Verif.error_text_storage",
    "Verif.error_text_extrinsic",
    "Verif.error_text_signable",
    "Verif.error_text_transaction",
    "Verif.error_text_transaction_unmarked",
    "Verif.error_text_transaction_call",
    "Verif.plainTexts_clear"
   ],
   "note": "Texts of BufferError and of external memory errors come from outside of the crate and are parameters."
  },
  {
   "property": "C65",
   "status": "proved",
   "theorems": [
    "Verif.decode_size",
    "Verif.value_size_linear",
    "Verif.value_size_largest",
    "Verif.whole_value_size_linear",
    "Verif.ranked_budget",
    "Verif.transaction_size_linear",
    "Verif.unmarked_size_linear",
    "Verif.extrinsic_size_linear",
    "Verif.storage_size_linear",
    "Verif.value_cards_linear",
    "Verif.transaction_cards_linear",
    "Verif.solidVectors_check",
    "Verif.WeightExample.bound_fails"
   ],
   "note": "K is explicit (largestSize); 960 to 6240 for the metadata in /repo/for_tests, all of which pass solidVectors_check"
  },
  {
   "property": "C66",
   "status": "proved",
   "theorems": [
    "Verif.value_cost_linear",
    "Verif.value_cost_consumed",
    "Verif.value_cost_ranked",
    "Verif.whole_value_cost_linear",
    "Verif.ranked_toll",
    "Verif.metered_meters",
    "Verif.metered_flaky",
    "Verif.transaction_cost_linear",
    "Verif.transactionUnmarked_cost_linear",
    "Verif.call_cost_linear",
    "Verif.extensions_cost_linear",
    "Verif.extrinsic_cost_linear",
    "Verif.storage_cost_linear",
    "Verif.CostExample.bound_exceeded"
   ],
   "note": "K is explicit (largestCost), with 400 for the accesses of one type itself. On the device model (Model/Device, Model/DeviceTx), any memory that is Flaky."
  },
  {
   "property": "C67",
   "status": "proved",
   "theorems": [
    "Verif.decode32_outcome",
    "Verif.decode32_success",
    "Verif.decodeAllAsType32",
    "Verif.parseTransaction32",
    "Verif.parseTransactionUnmarked32",
    "Verif.decodeUncheckedExtrinsic32",
    "Verif.decodeStorageEntry32",
    "Verif.decode32_same",
    "Verif.functions32_same",
    "Verif.with_decode",
    "Verif.noU64Bits_check",
    "Verif.decode32_misreads",
    "Verif.decode32_panics"
   ],
   "note": "noU64Bits holds of the metadata in /repo/for_tests (see DESIGN); the last two theorems are the counterexamples of the statement. Sums beyond a machine word are C59."
  },
  {
   "property": "C68",
   "status": "proved",
   "theorems": [
    "Verif.error_final",
    "Verif.error_tooShort",
    "Verif.error_answered",
    "Verif.error_of_beginning",
    "Verif.all_error_final",
    "Verif.call_error_final",
    "Verif.decode_never_outOfRange"
   ],
   "note": "Memory that never fails (failing memory is C61). Not for whole extrinsics and transactions: there a length prefix or the end of the data decides, see C29, C30."
  },
  {
   "property": "C69",
   "status": "proved",
   "theorems": [
    "Verif.ss58_injective",
    "Verif.ss58_key",
    "Verif.base58_injective",
    "Verif.ss58_prefix_mod",
    "Verif.ss58_faithful"
   ],
   "note": "The SS58 format is that of the crate substrate_crypto_light (not in /repo), modelled from its documentation."
  },
  {
   "property": "C70",
   "status": "proved",
   "theorems": [
    "Verif.decode_shift",
    "Verif.decode_from",
    "Verif.decode_before",
    "Verif.call_shift",
    "Verif.extensions_shift",
    "Verif.parseTransaction_parts",
    "Verif.transaction_any_call",
    "Verif.transaction_any_extensions",
    "Verif.parseTransactionUnmarked_parts"
   ],
   "note": "C06 is the part for data that decode (and does not ask for the same data after what is consumed)."
  },
  {
   "property": "C71",
   "status": "proved",
   "theorems": [
    "Verif.transaction_otherVersion",
    "Verif.transaction_oneVersion",
    "Verif.unmarked_otherVersion",
    "Verif.transaction_oneChain",
    "Verif.unmarked_oneChain",
    "Verif.nextVersion_same"
   ],
   "note": "That the version and hash are those in the data is C26 and C27."
  },
  {
   "property": "C72",
   "status": "proved",
   "theorems": [
    "Verif.decode_reads_inside",
    "Verif.decode_reads_inside_reliable",
    "Verif.call_reads_inside",
    "Verif.marked_call_reads_inside",
    "Verif.extensions_reads_inside",
    "Verif.marked_extensions_reads_inside",
    "Verif.decode_reads_every_byte",
    "Verif.decodeAll_reads_every_byte",
    "Verif.call_reads_every_byte",
    "Verif.extensions_reads_every_byte",
    "Verif.parseTransaction_reads_every_byte",
    "Verif.parseTransactionUnmarked_reads_every_byte"
   ],
   "note": "The look at the index byte of an enum without variants is the one request outside of the range; it does not influence the outcome. Failures that come and go are C57 to C61."
  },
  {
   "property": "C73",
   "status": "proved",
   "theorems": [
    "Verif.decode_typed",
    "Verif.shown_iff_typed",
    "Verif.typed_one_data",
    "Verif.typed_encoded",
    "Verif.encoded_typed"
   ],
   "note": "The encodings themselves are C01 and C02; when there is one only is C50."
  },
  {
   "property": "C74",
   "status": "proved",
   "theorems": [
    "Verif.decode_encode",
    "Verif.decode_encode_inside",
    "Verif.encode_iff_typed",
    "Verif.encode_decode",
    "Verif.encode_decode_inside",
    "Verif.encode_decode_same",
    "Verif.Encoder'.encode_sound",
    "Verif.Encoder'.typed_written"
   ],
   "note": "From some depth on: the bound on recursion exists for every value, it is not computed."
  },
  {
   "property": "C75",
   "status": "proved",
   "theorems": [
    "Verif.parseTransaction_exact",
    "Verif.parseTransactionUnmarked_exact",
    "Verif.parseTransaction_refuses",
    "Verif.wallet_decides",
    "Verif.wallet_parsed",
    "Verif.wallet_parsed_unmarked",
    "Verif.parsed_written",
    "Verif.accepted_iff_proper"
   ],
   "note": "Reliable memory."
  },
  {
   "property": "C76",
   "status": "proved",
   "theorems": [
    "Verif.decodeUncheckedExtrinsic_exact",
    "Verif.node_extrinsic_decoded",
    "Verif.extrinsic_written",
    "Verif.node_storage_decoded",
    "Verif.node_keys_differ"
   ],
   "note": "Reliable memory."
  },
  {
   "property": "C77",
   "status": "proved",
   "theorems": [
    "Verif.storage_prefix_ignored",
    "Verif.storage_rebuilt",
    "Verif.storage_shown_determines"
   ],
   "note": "storage_prefix_ignored: the prefix of a key is never checked (as documented)."
  },
  {
   "property": "C78",
   "status": "proved",
   "theorems": [
    "Verif.pieces_struct",
    "Verif.pieces_tuple",
    "Verif.pieces_array",
    "Verif.pieces_vector",
    "Verif.pieces_enum",
    "Verif.pieces_pallet",
    "Verif.pieces_signature"
   ],
   "note": "Registries are required to be ranked (no type contains itself without an enum or a vector in between); in others the cycle check makes parts depend on their context."
  },
  {
   "property": "C79",
   "status": "proved",
   "theorems": [
    "Verif.decode_names",
    "Verif.decodeAll_names",
    "Verif.decode_docs_ignored",
    "Verif.decode_any_names",
    "Verif.transaction_names"
   ],
   "note": "For transactions the identifiers of signed extensions do count, and names of fields inside extensions if they decide what counts as spec version; `transaction_names` asks that what counts stays the same."
  },
  {
   "property": "C80",
   "status": "proved",
   "theorems": [
    "Verif.pieces_transaction",
    "Verif.pieces_transaction_unmarked",
    "Verif.pieces_call",
    "Verif.pieces_extensions",
    "Verif.pieces_extrinsic",
    "Verif.verdict_proper"
   ],
   "note": "`verdict_proper`: nothing is found wrong exactly if the values are proper in the sense of C75."
  },
  {
   "property": "C81",
   "status": "proved",
   "theorems": [
    "Verif.decodeAsTypeAtPositionD_untrusted",
    "Verif.decodeAllAsTypeD_untrusted",
    "Verif.decodeAsTypeAtPositionD_valueOf",
    "Verif.decodeAllAsTypeD_valueOf",
    "Verif.parseTransactionD_untrusted",
    "Verif.parseTransactionD_accepted",
    "Verif.parseTransactionD_valuesOf",
    "Verif.parseTransactionUnmarkedD_untrusted",
    "Verif.parseTransactionUnmarkedD_accepted",
    "Verif.parseTransactionUnmarkedD_valuesOf",
    "Verif.decodeUncheckedExtrinsicD_untrusted",
    "Verif.decodeUncheckedExtrinsicD_valuesOf",
    "Verif.decodeStorageEntryD_untrusted",
    "Verif.decodeStorageEntryD_valuesOf"
   ],
   "note": "Concrete changing memories in `Witness/Hostile.lean`."
  },
  {
   "property": "C82",
   "status": "proved",
   "theorems": [
    "Verif.westend_metadata",
    "Verif.westend_registry",
    "Verif.westend_values",
    "Verif.westend_transaction",
    "Verif.westend_unmarked",
    "Verif.westend_signs",
    "Verif.westend_32bit",
    "Verif.westend_cost",
    "Verif.westend_size"
   ],
   "note": "The transaction of the crate's documentation in `Witness/Westend.lean`."
  },
  {
   "property": "C83",
   "status": "proved",
   "theorems": [
    "Verif.westend_transfer",
    "Verif.westend_extrinsic"
   ],
   "note": "The transfer of the crate's documentation in `Witness/Westend.lean`."
  },
  {
   "property": "C84",
   "status": "proved",
   "theorems": [
    "Verif.submitted_as_signed",
    "Verif.signed_as_submitted",
    "Verif.westend_submitted",
    "Verif.westend_oneChain"
   ],
   "note": "The transaction of the crate's documentation, sent in an extrinsic and back, in `Witness/Submitted.lean`."
  },
  {
   "property": "C85",
   "status": "proved",
   "theorems": [
    "Verif.westend_screen",
    "Verif.westend_screen_only",
    "Verif.amountText_money"
   ],
   "note": "The documented transaction with exactly the lines of src/tests.rs:392-421, address included, in `Witness/Screen.lean`."
  },
  {
   "property": "C86",
   "status": "proved",
   "theorems": [
    "Verif.westend_orders",
    "Verif.westend_orders_screen",
    "Verif.westend_orders_only",
    "Verif.orders_distinct"
   ],
   "note": "A batch of a transfer, an empty batch and a batch in a batch, with all lines, in `Witness/Batch.lean`."
  },
  {
   "property": "C87",
   "status": "proved",
   "theorems": [
    "Verif.posAsTypeD_outcome",
    "Verif.posAsTypeD_ahead",
    "Verif.posAsTypeD_total",
    "Verif.posAsTypeD_located",
    "Verif.posAsCallUnmarkedD_outcome",
    "Verif.posAsCallUnmarkedD_ahead",
    "Verif.posAsCallUnmarkedD_located",
    "Verif.posExtensionsUnmarkedD_outcome",
    "Verif.posExtensionsUnmarkedD_ahead",
    "Verif.posExtensionsUnmarkedD_located"
   ],
   "note": "The errors of the memory itself (BufferError::External, RegistryError::External) name no position. Examples with a failure at a chosen access at the end of `Props/PosDevice.lean`."
  },
  {
   "property": "C88",
   "status": "proved",
   "theorems": [
    "Verif.decodeShortSpecs_iff",
    "Verif.decodeExtrinsicParams_iff",
    "Verif.decodeSignedExt_iff",
    "Verif.decodeSpecNameVersion_iff",
    "Verif.stored_once"
   ],
   "note": "parity-scale-codec's derive and UntrackedSymbol's codec are modelled as documented; the contents of codec errors are not."
  },
  {
   "property": "C89",
   "status": "proved",
   "theorems": [
    "Verif.quiet_value",
    "Verif.quiet_all",
    "Verif.quiet_transaction",
    "Verif.quiet_unmarked",
    "Verif.quiet_extrinsic",
    "Verif.quiet_storage",
    "Verif.watching_counts",
    "Verif.retry_value",
    "Verif.retry_labelFree",
    "Verif.retry_transaction",
    "Verif.retry_unmarked",
    "Verif.retry_extrinsic",
    "Verif.retry_storage",
    "Verif.scripted_tires",
    "Verif.carryOn_wrong"
   ],
   "note": "Storage: for hashers that do not keep the key, others may panic on failing memory (C34, C60)."
  },
  {
   "property": "C90",
   "status": "proved",
   "theorems": [
    "Verif.decodeAsTypeAtPosition_upgraded",
    "Verif.decodeAllAsType_upgraded",
    "Verif.decodeAsTypeAtPosition_still",
    "Verif.decodeAsCallUnmarked_upgraded",
    "Verif.decodeExtensionsUnmarked_upgraded",
    "Verif.parseTransactionUnmarked_upgraded",
    "Verif.parseTransaction_upgraded",
    "Verif.decodeUncheckedExtrinsic_upgraded",
    "Verif.decodeStorageEntry_upgraded",
    "Verif.keepsVariants_append",
    "Verif.keepsVariants_of_indices",
    "Verif.upgraded_of_lists",
    "Verif.decodeAsTypeAtPosition_upgradedBy",
    "Verif.decodeAllAsType_upgradedBy",
    "Verif.decodeAsCallUnmarked_upgradedBy",
    "Verif.parseTransactionUnmarked_upgradedBy",
    "Verif.parseTransaction_upgradedBy",
    "Verif.decodeUncheckedExtrinsic_upgradedBy",
    "Verif.decodeStorageEntry_upgradedBy",
    "Verif.upgradedBy_of_lists"
   ],
   "note": "Type parameters may change freely. An enum without variants must stay so: it takes no bytes. A variant that changes its index is shown as another variant, without an error (example)."
  },
  {
   "property": "C91",
   "status": "proved",
   "theorems": [
    "Verif.polkadot_metadata",
    "Verif.polkadot_registry",
    "Verif.polkadot_values",
    "Verif.polkadot_transaction",
    "Verif.polkadot_unmarked",
    "Verif.polkadot_transfer",
    "Verif.polkadot_extrinsic",
    "Verif.polkadot_signs",
    "Verif.polkadot_submitted",
    "Verif.polkadot_oneChain",
    "Verif.polkadot_32bit"
   ],
   "note": "`Witness/Polkadot.lean` has the extrinsic of the crate's test `unchecked_extrinsic_2`: it is shown as another call than the one it was made for, and its last three bytes are ignored (finding 1)."
  },
  {
   "property": "C92",
   "status": "proved",
   "theorems": [
    "Verif.westend_account",
    "Verif.westend_account_only",
    "Verif.westend_account_accepted",
    "Verif.westend_account_screen",
    "Verif.westend_account_screen_only",
    "Verif.polkadot_account",
    "Verif.polkadot_account_only",
    "Verif.polkadot_account_accepted",
    "Verif.polkadot_account_screen",
    "Verif.polkadot_account_screen_only"
   ],
   "note": "That the entry in the metadata is the one used here is checked by `tools/conformance.py`. The first 32 bytes of the key are not checked by the crate (finding on key prefixes). Alice's actual key, and her screen, in `Witness/Accounts.lean`."
  },
  {
   "property": "C93",
   "status": "proved",
   "theorems": [
    "Verif.polkadot_screen",
    "Verif.polkadot_screen_only"
   ],
   "note": "The lines are compared one by one as elements of a list: a metadata hash that spells a text with a line break looks like two lines when printed (finding on forged lines, instance in `Witness/PolkadotScreen.lean`). `show_with_docs` is not covered here."
  },
  {
   "property": "C94",
   "status": "proved",
   "theorems": [
    "Verif.decodeAllAsType_printed",
    "Verif.decodeAllAsType_printed_bytes",
    "Verif.parseTransaction_printed",
    "Verif.parseTransaction_printed_bytes",
    "Verif.westend_printed",
    "Verif.westend_orders_printed",
    "Verif.polkadot_printed",
    "Verif.polkadot_transfer_printed"
   ],
   "note": "Call and extensions are printed one below the other, as the documentation does; equality of both parts separately is a special case. `show_forged` (C47) is an imitation of a display with texts."
  },
  {
   "property": "C95",
   "status": "proved",
   "theorems": [
    "Verif.decodeAllAsType_unforged",
    "Verif.decodeAllAsType_unforged_bytes",
    "Verif.parseTransaction_unforged",
    "Verif.parseTransaction_unforged_bytes",
    "Verif.parseTransactionUnmarked_unforged",
    "Verif.parseTransactionUnmarked_unforged_bytes",
    "Verif.westend_unforged",
    "Verif.polkadot_unforged",
    "Verif.polkadot_transfer_unforged"
   ],
   "note": "Stronger than C94 where the display has texts; both displays begin at the same depth. `show_forged` (C47) and the example in `Witness/Unforged` show that the condition cannot be dropped."
  },
  {
   "property": "C96",
   "status": "proved",
   "theorems": [
    "Verif.decodeAllAsType_quotes",
    "Verif.decodeAllAsType_oneLine",
    "Verif.decodeAllAsType_oneLine_inv",
    "Verif.decodeAllAsType_own_display",
    "Verif.parseTransaction_quotes",
    "Verif.parseTransaction_oneLine",
    "Verif.parseTransaction_own_display",
    "Verif.parseTransactionUnmarked_quotes",
    "Verif.parseTransactionUnmarked_oneLine",
    "Verif.parseTransactionUnmarked_own_display"
   ],
   "note": "That a list of bytes may be shown without its text is the example with nonces in `Witness/Quoted`."
  },
  {
   "property": "C97",
   "status": "proved",
   "theorems": [
    "Verif.polkadot_remark",
    "Verif.polkadot_remark_screen",
    "Verif.polkadot_remark_screen_only",
    "Verif.polkadot_remark_unforged",
    "Verif.polkadot_remark_unforgeable"
   ],
   "note": "The other pallets and calls of Polkadot are covered by the general theorems (C52, C95) only."
  }
 ]
}
