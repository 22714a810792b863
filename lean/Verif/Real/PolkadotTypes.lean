import Verif.Model.Metadata
/-! Generated by `tools/gen_polkadot.py` from `/repo/for_tests/polkadot1003003_v15` (documentation texts left out). -/
namespace Verif.Polkadot

/-- Types 0 to 31 of `for_tests/polkadot1003003_v15`. -/
def types0 : List Typ :=
  [⟨["sp_core", "crypto", "AccountId32"], [], .composite [⟨none, 1, (some "[u8; 32]"), []⟩], []⟩,
   ⟨[], [], .array 32 2, []⟩,
   ⟨[], [], .primitive .u8, []⟩,
   ⟨["frame_system", "AccountInfo"], [("Nonce", (some 4)), ("AccountData", (some 5))], .composite [⟨(some "nonce"), 4, (some "Nonce"), []⟩, ⟨(some "consumers"), 4, (some "RefCount"), []⟩, ⟨(some "providers"), 4, (some "RefCount"), []⟩, ⟨(some "sufficients"), 4, (some "RefCount"), []⟩, ⟨(some "data"), 5, (some "AccountData"), []⟩], []⟩,
   ⟨[], [], .primitive .u32, []⟩,
   ⟨["pallet_balances", "types", "AccountData"], [("Balance", (some 6))], .composite [⟨(some "free"), 6, (some "Balance"), []⟩, ⟨(some "reserved"), 6, (some "Balance"), []⟩, ⟨(some "frozen"), 6, (some "Balance"), []⟩, ⟨(some "flags"), 7, (some "ExtraFlags"), []⟩], []⟩,
   ⟨[], [], .primitive .u128, []⟩,
   ⟨["pallet_balances", "types", "ExtraFlags"], [], .composite [⟨none, 6, (some "u128"), []⟩], []⟩,
   ⟨[], [], .primitive .bool, []⟩,
   ⟨["frame_support", "dispatch", "PerDispatchClass"], [("T", (some 10))], .composite [⟨(some "normal"), 10, (some "T"), []⟩, ⟨(some "operational"), 10, (some "T"), []⟩, ⟨(some "mandatory"), 10, (some "T"), []⟩], []⟩,
   ⟨["sp_weights", "weight_v2", "Weight"], [], .composite [⟨(some "ref_time"), 11, (some "u64"), []⟩, ⟨(some "proof_size"), 11, (some "u64"), []⟩], []⟩,
   ⟨[], [], .compact 12, []⟩,
   ⟨[], [], .primitive .u64, []⟩,
   ⟨["primitive_types", "H256"], [], .composite [⟨none, 1, (some "[u8; 32]"), []⟩], []⟩,
   ⟨[], [], .sequence 2, []⟩,
   ⟨["sp_runtime", "generic", "digest", "Digest"], [], .composite [⟨(some "logs"), 16, (some "Vec<DigestItem>"), []⟩], []⟩,
   ⟨[], [], .sequence 17, []⟩,
   ⟨["sp_runtime", "generic", "digest", "DigestItem"], [], .variant [⟨"PreRuntime", [⟨none, 18, (some "ConsensusEngineId"), []⟩, ⟨none, 14, (some "Vec<u8>"), []⟩], 6, []⟩, ⟨"Consensus", [⟨none, 18, (some "ConsensusEngineId"), []⟩, ⟨none, 14, (some "Vec<u8>"), []⟩], 4, []⟩, ⟨"Seal", [⟨none, 18, (some "ConsensusEngineId"), []⟩, ⟨none, 14, (some "Vec<u8>"), []⟩], 5, []⟩, ⟨"Other", [⟨none, 14, (some "Vec<u8>"), []⟩], 0, []⟩, ⟨"RuntimeEnvironmentUpdated", [], 8, []⟩], []⟩,
   ⟨[], [], .array 4 2, []⟩,
   ⟨[], [], .sequence 20, []⟩,
   ⟨["frame_system", "EventRecord"], [("E", (some 21)), ("T", (some 13))], .composite [⟨(some "phase"), 497, (some "Phase"), []⟩, ⟨(some "event"), 21, (some "E"), []⟩, ⟨(some "topics"), 101, (some "Vec<T>"), []⟩], []⟩,
   ⟨["polkadot_runtime", "RuntimeEvent"], [], .variant [⟨"System", [⟨none, 22, (some "frame_system::Event<Runtime>"), []⟩], 0, []⟩, ⟨"Scheduler", [⟨none, 31, (some "pallet_scheduler::Event<Runtime>"), []⟩], 1, []⟩, ⟨"Preimage", [⟨none, 36, (some "pallet_preimage::Event<Runtime>"), []⟩], 10, []⟩, ⟨"Indices", [⟨none, 37, (some "pallet_indices::Event<Runtime>"), []⟩], 4, []⟩, ⟨"Balances", [⟨none, 38, (some "pallet_balances::Event<Runtime>"), []⟩], 5, []⟩, ⟨"TransactionPayment", [⟨none, 40, (some "pallet_transaction_payment::Event<Runtime>"), []⟩], 32, []⟩, ⟨"Staking", [⟨none, 41, (some "pallet_staking::Event<Runtime>"), []⟩], 7, []⟩, ⟨"Offences", [⟨none, 47, (some "pallet_offences::Event"), []⟩], 8, []⟩, ⟨"Session", [⟨none, 49, (some "pallet_session::Event"), []⟩], 9, []⟩, ⟨"Grandpa", [⟨none, 50, (some "pallet_grandpa::Event"), []⟩], 11, []⟩, ⟨"Treasury", [⟨none, 54, (some "pallet_treasury::Event<Runtime>"), []⟩], 19, []⟩, ⟨"ConvictionVoting", [⟨none, 89, (some "pallet_conviction_voting::Event<Runtime>"), []⟩], 20, []⟩, ⟨"Referenda", [⟨none, 90, (some "pallet_referenda::Event<Runtime>"), []⟩], 21, []⟩, ⟨"Whitelist", [⟨none, 449, (some "pallet_whitelist::Event<Runtime>"), []⟩], 23, []⟩, ⟨"Parameters", [⟨none, 454, (some "pallet_parameters::Event<Runtime>"), []⟩], 27, []⟩, ⟨"Claims", [⟨none, 460, (some "claims::Event<Runtime>"), []⟩], 24, []⟩, ⟨"Vesting", [⟨none, 461, (some "pallet_vesting::Event<Runtime>"), []⟩], 25, []⟩, ⟨"Utility", [⟨none, 462, (some "pallet_utility::Event"), []⟩], 26, []⟩, ⟨"Proxy", [⟨none, 463, (some "pallet_proxy::Event<Runtime>"), []⟩], 29, []⟩, ⟨"Multisig", [⟨none, 464, (some "pallet_multisig::Event<Runtime>"), []⟩], 30, []⟩, ⟨"Bounties", [⟨none, 465, (some "pallet_bounties::Event<Runtime>"), []⟩], 34, []⟩, ⟨"ChildBounties", [⟨none, 466, (some "pallet_child_bounties::Event<Runtime>"), []⟩], 38, []⟩, ⟨"ElectionProviderMultiPhase", [⟨none, 467, (some "pallet_election_provider_multi_phase::Event<Runtime>"), []⟩], 36, []⟩, ⟨"VoterList", [⟨none, 471, (some "pallet_bags_list::Event<Runtime, pallet_bags_list::Instance1>"), []⟩], 37, []⟩, ⟨"NominationPools", [⟨none, 472, (some "pallet_nomination_pools::Event<Runtime>"), []⟩], 39, []⟩, ⟨"FastUnstake", [⟨none, 473, (some "pallet_fast_unstake::Event<Runtime>"), []⟩], 40, []⟩, ⟨"ParaInclusion", [⟨none, 474, (some "parachains_inclusion::Event<Runtime>"), []⟩], 53, []⟩, ⟨"Paras", [⟨none, 478, (some "parachains_paras::Event"), []⟩], 56, []⟩, ⟨"Hrmp", [⟨none, 479, (some "parachains_hrmp::Event<Runtime>"), []⟩], 60, []⟩, ⟨"ParasDisputes", [⟨none, 480, (some "parachains_disputes::Event<Runtime>"), []⟩], 62, []⟩, ⟨"OnDemand", [⟨none, 483, (some "parachains_assigner_on_demand::Event<Runtime>"), []⟩], 64, []⟩, ⟨"Registrar", [⟨none, 484, (some "paras_registrar::Event<Runtime>"), []⟩], 70, []⟩, ⟨"Slots", [⟨none, 485, (some "slots::Event<Runtime>"), []⟩], 71, []⟩, ⟨"Auctions", [⟨none, 486, (some "auctions::Event<Runtime>"), []⟩], 72, []⟩, ⟨"Crowdloan", [⟨none, 487, (some "crowdloan::Event<Runtime>"), []⟩], 73, []⟩, ⟨"Coretime", [⟨none, 488, (some "coretime::Event<Runtime>"), []⟩], 74, []⟩, ⟨"StateTrieMigration", [⟨none, 489, (some "pallet_state_trie_migration::Event<Runtime>"), []⟩], 98, []⟩, ⟨"XcmPallet", [⟨none, 492, (some "pallet_xcm::Event<Runtime>"), []⟩], 99, []⟩, ⟨"MessageQueue", [⟨none, 494, (some "pallet_message_queue::Event<Runtime>"), []⟩], 100, []⟩, ⟨"AssetRate", [⟨none, 496, (some "pallet_asset_rate::Event<Runtime>"), []⟩], 101, []⟩], []⟩,
   ⟨["frame_system", "pallet", "Event"], [("T", none)], .variant [⟨"ExtrinsicSuccess", [⟨(some "dispatch_info"), 23, (some "DispatchInfo"), []⟩], 0, []⟩, ⟨"ExtrinsicFailed", [⟨(some "dispatch_error"), 26, (some "DispatchError"), []⟩, ⟨(some "dispatch_info"), 23, (some "DispatchInfo"), []⟩], 1, []⟩, ⟨"CodeUpdated", [], 2, []⟩, ⟨"NewAccount", [⟨(some "account"), 0, (some "T::AccountId"), []⟩], 3, []⟩, ⟨"KilledAccount", [⟨(some "account"), 0, (some "T::AccountId"), []⟩], 4, []⟩, ⟨"Remarked", [⟨(some "sender"), 0, (some "T::AccountId"), []⟩, ⟨(some "hash"), 13, (some "T::Hash"), []⟩], 5, []⟩, ⟨"UpgradeAuthorized", [⟨(some "code_hash"), 13, (some "T::Hash"), []⟩, ⟨(some "check_version"), 8, (some "bool"), []⟩], 6, []⟩], []⟩,
   ⟨["frame_support", "dispatch", "DispatchInfo"], [], .composite [⟨(some "weight"), 10, (some "Weight"), []⟩, ⟨(some "class"), 24, (some "DispatchClass"), []⟩, ⟨(some "pays_fee"), 25, (some "Pays"), []⟩], []⟩,
   ⟨["frame_support", "dispatch", "DispatchClass"], [], .variant [⟨"Normal", [], 0, []⟩, ⟨"Operational", [], 1, []⟩, ⟨"Mandatory", [], 2, []⟩], []⟩,
   ⟨["frame_support", "dispatch", "Pays"], [], .variant [⟨"Yes", [], 0, []⟩, ⟨"No", [], 1, []⟩], []⟩,
   ⟨["sp_runtime", "DispatchError"], [], .variant [⟨"Other", [], 0, []⟩, ⟨"CannotLookup", [], 1, []⟩, ⟨"BadOrigin", [], 2, []⟩, ⟨"Module", [⟨none, 27, (some "ModuleError"), []⟩], 3, []⟩, ⟨"ConsumerRemaining", [], 4, []⟩, ⟨"NoProviders", [], 5, []⟩, ⟨"TooManyConsumers", [], 6, []⟩, ⟨"Token", [⟨none, 28, (some "TokenError"), []⟩], 7, []⟩, ⟨"Arithmetic", [⟨none, 29, (some "ArithmeticError"), []⟩], 8, []⟩, ⟨"Transactional", [⟨none, 30, (some "TransactionalError"), []⟩], 9, []⟩, ⟨"Exhausted", [], 10, []⟩, ⟨"Corruption", [], 11, []⟩, ⟨"Unavailable", [], 12, []⟩, ⟨"RootNotAllowed", [], 13, []⟩], []⟩,
   ⟨["sp_runtime", "ModuleError"], [], .composite [⟨(some "index"), 2, (some "u8"), []⟩, ⟨(some "error"), 18, (some "[u8; MAX_MODULE_ERROR_ENCODED_SIZE]"), []⟩], []⟩,
   ⟨["sp_runtime", "TokenError"], [], .variant [⟨"FundsUnavailable", [], 0, []⟩, ⟨"OnlyProvider", [], 1, []⟩, ⟨"BelowMinimum", [], 2, []⟩, ⟨"CannotCreate", [], 3, []⟩, ⟨"UnknownAsset", [], 4, []⟩, ⟨"Frozen", [], 5, []⟩, ⟨"Unsupported", [], 6, []⟩, ⟨"CannotCreateHold", [], 7, []⟩, ⟨"NotExpendable", [], 8, []⟩, ⟨"Blocked", [], 9, []⟩], []⟩,
   ⟨["sp_arithmetic", "ArithmeticError"], [], .variant [⟨"Underflow", [], 0, []⟩, ⟨"Overflow", [], 1, []⟩, ⟨"DivisionByZero", [], 2, []⟩], []⟩,
   ⟨["sp_runtime", "TransactionalError"], [], .variant [⟨"LimitReached", [], 0, []⟩, ⟨"NoLayer", [], 1, []⟩], []⟩,
   ⟨["pallet_scheduler", "pallet", "Event"], [("T", none)], .variant [⟨"Scheduled", [⟨(some "when"), 4, (some "BlockNumberFor<T>"), []⟩, ⟨(some "index"), 4, (some "u32"), []⟩], 0, []⟩, ⟨"Canceled", [⟨(some "when"), 4, (some "BlockNumberFor<T>"), []⟩, ⟨(some "index"), 4, (some "u32"), []⟩], 1, []⟩, ⟨"Dispatched", [⟨(some "task"), 32, (some "TaskAddress<BlockNumberFor<T>>"), []⟩, ⟨(some "id"), 33, (some "Option<TaskName>"), []⟩, ⟨(some "result"), 34, (some "DispatchResult"), []⟩], 2, []⟩, ⟨"RetrySet", [⟨(some "task"), 32, (some "TaskAddress<BlockNumberFor<T>>"), []⟩, ⟨(some "id"), 33, (some "Option<TaskName>"), []⟩, ⟨(some "period"), 4, (some "BlockNumberFor<T>"), []⟩, ⟨(some "retries"), 2, (some "u8"), []⟩], 3, []⟩, ⟨"RetryCancelled", [⟨(some "task"), 32, (some "TaskAddress<BlockNumberFor<T>>"), []⟩, ⟨(some "id"), 33, (some "Option<TaskName>"), []⟩], 4, []⟩, ⟨"CallUnavailable", [⟨(some "task"), 32, (some "TaskAddress<BlockNumberFor<T>>"), []⟩, ⟨(some "id"), 33, (some "Option<TaskName>"), []⟩], 5, []⟩, ⟨"PeriodicFailed", [⟨(some "task"), 32, (some "TaskAddress<BlockNumberFor<T>>"), []⟩, ⟨(some "id"), 33, (some "Option<TaskName>"), []⟩], 6, []⟩, ⟨"RetryFailed", [⟨(some "task"), 32, (some "TaskAddress<BlockNumberFor<T>>"), []⟩, ⟨(some "id"), 33, (some "Option<TaskName>"), []⟩], 7, []⟩, ⟨"PermanentlyOverweight", [⟨(some "task"), 32, (some "TaskAddress<BlockNumberFor<T>>"), []⟩, ⟨(some "id"), 33, (some "Option<TaskName>"), []⟩], 8, []⟩], []⟩]

/-- Types 32 to 63 of `for_tests/polkadot1003003_v15`. -/
def types1 : List Typ :=
  [⟨[], [], .tuple [4, 4], []⟩,
   ⟨["Option"], [("T", (some 1))], .variant [⟨"None", [], 0, []⟩, ⟨"Some", [⟨none, 1, none, []⟩], 1, []⟩], []⟩,
   ⟨["Result"], [("T", (some 35)), ("E", (some 26))], .variant [⟨"Ok", [⟨none, 35, none, []⟩], 0, []⟩, ⟨"Err", [⟨none, 26, none, []⟩], 1, []⟩], []⟩,
   ⟨[], [], .tuple [], []⟩,
   ⟨["pallet_preimage", "pallet", "Event"], [("T", none)], .variant [⟨"Noted", [⟨(some "hash"), 13, (some "T::Hash"), []⟩], 0, []⟩, ⟨"Requested", [⟨(some "hash"), 13, (some "T::Hash"), []⟩], 1, []⟩, ⟨"Cleared", [⟨(some "hash"), 13, (some "T::Hash"), []⟩], 2, []⟩], []⟩,
   ⟨["pallet_indices", "pallet", "Event"], [("T", none)], .variant [⟨"IndexAssigned", [⟨(some "who"), 0, (some "T::AccountId"), []⟩, ⟨(some "index"), 4, (some "T::AccountIndex"), []⟩], 0, []⟩, ⟨"IndexFreed", [⟨(some "index"), 4, (some "T::AccountIndex"), []⟩], 1, []⟩, ⟨"IndexFrozen", [⟨(some "index"), 4, (some "T::AccountIndex"), []⟩, ⟨(some "who"), 0, (some "T::AccountId"), []⟩], 2, []⟩], []⟩,
   ⟨["pallet_balances", "pallet", "Event"], [("T", none), ("I", none)], .variant [⟨"Endowed", [⟨(some "account"), 0, (some "T::AccountId"), []⟩, ⟨(some "free_balance"), 6, (some "T::Balance"), []⟩], 0, []⟩, ⟨"DustLost", [⟨(some "account"), 0, (some "T::AccountId"), []⟩, ⟨(some "amount"), 6, (some "T::Balance"), []⟩], 1, []⟩, ⟨"Transfer", [⟨(some "from"), 0, (some "T::AccountId"), []⟩, ⟨(some "to"), 0, (some "T::AccountId"), []⟩, ⟨(some "amount"), 6, (some "T::Balance"), []⟩], 2, []⟩, ⟨"BalanceSet", [⟨(some "who"), 0, (some "T::AccountId"), []⟩, ⟨(some "free"), 6, (some "T::Balance"), []⟩], 3, []⟩, ⟨"Reserved", [⟨(some "who"), 0, (some "T::AccountId"), []⟩, ⟨(some "amount"), 6, (some "T::Balance"), []⟩], 4, []⟩, ⟨"Unreserved", [⟨(some "who"), 0, (some "T::AccountId"), []⟩, ⟨(some "amount"), 6, (some "T::Balance"), []⟩], 5, []⟩, ⟨"ReserveRepatriated", [⟨(some "from"), 0, (some "T::AccountId"), []⟩, ⟨(some "to"), 0, (some "T::AccountId"), []⟩, ⟨(some "amount"), 6, (some "T::Balance"), []⟩, ⟨(some "destination_status"), 39, (some "Status"), []⟩], 6, []⟩, ⟨"Deposit", [⟨(some "who"), 0, (some "T::AccountId"), []⟩, ⟨(some "amount"), 6, (some "T::Balance"), []⟩], 7, []⟩, ⟨"Withdraw", [⟨(some "who"), 0, (some "T::AccountId"), []⟩, ⟨(some "amount"), 6, (some "T::Balance"), []⟩], 8, []⟩, ⟨"Slashed", [⟨(some "who"), 0, (some "T::AccountId"), []⟩, ⟨(some "amount"), 6, (some "T::Balance"), []⟩], 9, []⟩, ⟨"Minted", [⟨(some "who"), 0, (some "T::AccountId"), []⟩, ⟨(some "amount"), 6, (some "T::Balance"), []⟩], 10, []⟩, ⟨"Burned", [⟨(some "who"), 0, (some "T::AccountId"), []⟩, ⟨(some "amount"), 6, (some "T::Balance"), []⟩], 11, []⟩, ⟨"Suspended", [⟨(some "who"), 0, (some "T::AccountId"), []⟩, ⟨(some "amount"), 6, (some "T::Balance"), []⟩], 12, []⟩, ⟨"Restored", [⟨(some "who"), 0, (some "T::AccountId"), []⟩, ⟨(some "amount"), 6, (some "T::Balance"), []⟩], 13, []⟩, ⟨"Upgraded", [⟨(some "who"), 0, (some "T::AccountId"), []⟩], 14, []⟩, ⟨"Issued", [⟨(some "amount"), 6, (some "T::Balance"), []⟩], 15, []⟩, ⟨"Rescinded", [⟨(some "amount"), 6, (some "T::Balance"), []⟩], 16, []⟩, ⟨"Locked", [⟨(some "who"), 0, (some "T::AccountId"), []⟩, ⟨(some "amount"), 6, (some "T::Balance"), []⟩], 17, []⟩, ⟨"Unlocked", [⟨(some "who"), 0, (some "T::AccountId"), []⟩, ⟨(some "amount"), 6, (some "T::Balance"), []⟩], 18, []⟩, ⟨"Frozen", [⟨(some "who"), 0, (some "T::AccountId"), []⟩, ⟨(some "amount"), 6, (some "T::Balance"), []⟩], 19, []⟩, ⟨"Thawed", [⟨(some "who"), 0, (some "T::AccountId"), []⟩, ⟨(some "amount"), 6, (some "T::Balance"), []⟩], 20, []⟩, ⟨"TotalIssuanceForced", [⟨(some "old"), 6, (some "T::Balance"), []⟩, ⟨(some "new"), 6, (some "T::Balance"), []⟩], 21, []⟩], []⟩,
   ⟨["frame_support", "traits", "tokens", "misc", "BalanceStatus"], [], .variant [⟨"Free", [], 0, []⟩, ⟨"Reserved", [], 1, []⟩], []⟩,
   ⟨["pallet_transaction_payment", "pallet", "Event"], [("T", none)], .variant [⟨"TransactionFeePaid", [⟨(some "who"), 0, (some "T::AccountId"), []⟩, ⟨(some "actual_fee"), 6, (some "BalanceOf<T>"), []⟩, ⟨(some "tip"), 6, (some "BalanceOf<T>"), []⟩], 0, []⟩], []⟩,
   ⟨["pallet_staking", "pallet", "pallet", "Event"], [("T", none)], .variant [⟨"EraPaid", [⟨(some "era_index"), 4, (some "EraIndex"), []⟩, ⟨(some "validator_payout"), 6, (some "BalanceOf<T>"), []⟩, ⟨(some "remainder"), 6, (some "BalanceOf<T>"), []⟩], 0, []⟩, ⟨"Rewarded", [⟨(some "stash"), 0, (some "T::AccountId"), []⟩, ⟨(some "dest"), 42, (some "RewardDestination<T::AccountId>"), []⟩, ⟨(some "amount"), 6, (some "BalanceOf<T>"), []⟩], 1, []⟩, ⟨"Slashed", [⟨(some "staker"), 0, (some "T::AccountId"), []⟩, ⟨(some "amount"), 6, (some "BalanceOf<T>"), []⟩], 2, []⟩, ⟨"SlashReported", [⟨(some "validator"), 0, (some "T::AccountId"), []⟩, ⟨(some "fraction"), 43, (some "Perbill"), []⟩, ⟨(some "slash_era"), 4, (some "EraIndex"), []⟩], 3, []⟩, ⟨"OldSlashingReportDiscarded", [⟨(some "session_index"), 4, (some "SessionIndex"), []⟩], 4, []⟩, ⟨"StakersElected", [], 5, []⟩, ⟨"Bonded", [⟨(some "stash"), 0, (some "T::AccountId"), []⟩, ⟨(some "amount"), 6, (some "BalanceOf<T>"), []⟩], 6, []⟩, ⟨"Unbonded", [⟨(some "stash"), 0, (some "T::AccountId"), []⟩, ⟨(some "amount"), 6, (some "BalanceOf<T>"), []⟩], 7, []⟩, ⟨"Withdrawn", [⟨(some "stash"), 0, (some "T::AccountId"), []⟩, ⟨(some "amount"), 6, (some "BalanceOf<T>"), []⟩], 8, []⟩, ⟨"Kicked", [⟨(some "nominator"), 0, (some "T::AccountId"), []⟩, ⟨(some "stash"), 0, (some "T::AccountId"), []⟩], 9, []⟩, ⟨"StakingElectionFailed", [], 10, []⟩, ⟨"Chilled", [⟨(some "stash"), 0, (some "T::AccountId"), []⟩], 11, []⟩, ⟨"PayoutStarted", [⟨(some "era_index"), 4, (some "EraIndex"), []⟩, ⟨(some "validator_stash"), 0, (some "T::AccountId"), []⟩], 12, []⟩, ⟨"ValidatorPrefsSet", [⟨(some "stash"), 0, (some "T::AccountId"), []⟩, ⟨(some "prefs"), 44, (some "ValidatorPrefs"), []⟩], 13, []⟩, ⟨"SnapshotVotersSizeExceeded", [⟨(some "size"), 4, (some "u32"), []⟩], 14, []⟩, ⟨"SnapshotTargetsSizeExceeded", [⟨(some "size"), 4, (some "u32"), []⟩], 15, []⟩, ⟨"ForceEra", [⟨(some "mode"), 46, (some "Forcing"), []⟩], 16, []⟩, ⟨"ControllerBatchDeprecated", [⟨(some "failures"), 4, (some "u32"), []⟩], 17, []⟩], []⟩,
   ⟨["pallet_staking", "RewardDestination"], [("AccountId", (some 0))], .variant [⟨"Staked", [], 0, []⟩, ⟨"Stash", [], 1, []⟩, ⟨"Controller", [], 2, []⟩, ⟨"Account", [⟨none, 0, (some "AccountId"), []⟩], 3, []⟩, ⟨"None", [], 4, []⟩], []⟩,
   ⟨["sp_arithmetic", "per_things", "Perbill"], [], .composite [⟨none, 4, (some "u32"), []⟩], []⟩,
   ⟨["pallet_staking", "ValidatorPrefs"], [], .composite [⟨(some "commission"), 45, (some "Perbill"), []⟩, ⟨(some "blocked"), 8, (some "bool"), []⟩], []⟩,
   ⟨[], [], .compact 43, []⟩,
   ⟨["pallet_staking", "Forcing"], [], .variant [⟨"NotForcing", [], 0, []⟩, ⟨"ForceNew", [], 1, []⟩, ⟨"ForceNone", [], 2, []⟩, ⟨"ForceAlways", [], 3, []⟩], []⟩,
   ⟨["pallet_offences", "pallet", "Event"], [], .variant [⟨"Offence", [⟨(some "kind"), 48, (some "Kind"), []⟩, ⟨(some "timeslot"), 14, (some "OpaqueTimeSlot"), []⟩], 0, []⟩], []⟩,
   ⟨[], [], .array 16 2, []⟩,
   ⟨["pallet_session", "pallet", "Event"], [], .variant [⟨"NewSession", [⟨(some "session_index"), 4, (some "SessionIndex"), []⟩], 0, []⟩], []⟩,
   ⟨["pallet_grandpa", "pallet", "Event"], [], .variant [⟨"NewAuthorities", [⟨(some "authority_set"), 51, (some "AuthorityList"), []⟩], 0, []⟩, ⟨"Paused", [], 1, []⟩, ⟨"Resumed", [], 2, []⟩], []⟩,
   ⟨[], [], .sequence 52, []⟩,
   ⟨[], [], .tuple [53, 12], []⟩,
   ⟨["sp_consensus_grandpa", "app", "Public"], [], .composite [⟨none, 1, (some "ed25519::Public"), []⟩], []⟩,
   ⟨["pallet_treasury", "pallet", "Event"], [("T", none), ("I", none)], .variant [⟨"Spending", [⟨(some "budget_remaining"), 6, (some "BalanceOf<T, I>"), []⟩], 0, []⟩, ⟨"Awarded", [⟨(some "proposal_index"), 4, (some "ProposalIndex"), []⟩, ⟨(some "award"), 6, (some "BalanceOf<T, I>"), []⟩, ⟨(some "account"), 0, (some "T::AccountId"), []⟩], 1, []⟩, ⟨"Burnt", [⟨(some "burnt_funds"), 6, (some "BalanceOf<T, I>"), []⟩], 2, []⟩, ⟨"Rollover", [⟨(some "rollover_balance"), 6, (some "BalanceOf<T, I>"), []⟩], 3, []⟩, ⟨"Deposit", [⟨(some "value"), 6, (some "BalanceOf<T, I>"), []⟩], 4, []⟩, ⟨"SpendApproved", [⟨(some "proposal_index"), 4, (some "ProposalIndex"), []⟩, ⟨(some "amount"), 6, (some "BalanceOf<T, I>"), []⟩, ⟨(some "beneficiary"), 0, (some "T::AccountId"), []⟩], 5, []⟩, ⟨"UpdatedInactive", [⟨(some "reactivated"), 6, (some "BalanceOf<T, I>"), []⟩, ⟨(some "deactivated"), 6, (some "BalanceOf<T, I>"), []⟩], 6, []⟩, ⟨"AssetSpendApproved", [⟨(some "index"), 4, (some "SpendIndex"), []⟩, ⟨(some "asset_kind"), 55, (some "T::AssetKind"), []⟩, ⟨(some "amount"), 6, (some "AssetBalanceOf<T, I>"), []⟩, ⟨(some "beneficiary"), 81, (some "T::Beneficiary"), []⟩, ⟨(some "valid_from"), 4, (some "BlockNumberFor<T>"), []⟩, ⟨(some "expire_at"), 4, (some "BlockNumberFor<T>"), []⟩], 7, []⟩, ⟨"AssetSpendVoided", [⟨(some "index"), 4, (some "SpendIndex"), []⟩], 8, []⟩, ⟨"Paid", [⟨(some "index"), 4, (some "SpendIndex"), []⟩, ⟨(some "payment_id"), 12, (some "<T::Paymaster as Pay>::Id"), []⟩], 9, []⟩, ⟨"PaymentFailed", [⟨(some "index"), 4, (some "SpendIndex"), []⟩, ⟨(some "payment_id"), 12, (some "<T::Paymaster as Pay>::Id"), []⟩], 10, []⟩, ⟨"SpendProcessed", [⟨(some "index"), 4, (some "SpendIndex"), []⟩], 11, []⟩], []⟩,
   ⟨["polkadot_runtime_common", "impls", "VersionedLocatableAsset"], [], .variant [⟨"V3", [⟨(some "location"), 56, (some "xcm::v3::Location"), []⟩, ⟨(some "asset_id"), 66, (some "xcm::v3::AssetId"), []⟩], 3, []⟩, ⟨"V4", [⟨(some "location"), 67, (some "xcm::v4::Location"), []⟩, ⟨(some "asset_id"), 80, (some "xcm::v4::AssetId"), []⟩], 4, []⟩], []⟩,
   ⟨["staging_xcm", "v3", "multilocation", "MultiLocation"], [], .composite [⟨(some "parents"), 2, (some "u8"), []⟩, ⟨(some "interior"), 57, (some "Junctions"), []⟩], []⟩,
   ⟨["xcm", "v3", "junctions", "Junctions"], [], .variant [⟨"Here", [], 0, []⟩, ⟨"X1", [⟨none, 58, (some "Junction"), []⟩], 1, []⟩, ⟨"X2", [⟨none, 58, (some "Junction"), []⟩, ⟨none, 58, (some "Junction"), []⟩], 2, []⟩, ⟨"X3", [⟨none, 58, (some "Junction"), []⟩, ⟨none, 58, (some "Junction"), []⟩, ⟨none, 58, (some "Junction"), []⟩], 3, []⟩, ⟨"X4", [⟨none, 58, (some "Junction"), []⟩, ⟨none, 58, (some "Junction"), []⟩, ⟨none, 58, (some "Junction"), []⟩, ⟨none, 58, (some "Junction"), []⟩], 4, []⟩, ⟨"X5", [⟨none, 58, (some "Junction"), []⟩, ⟨none, 58, (some "Junction"), []⟩, ⟨none, 58, (some "Junction"), []⟩, ⟨none, 58, (some "Junction"), []⟩, ⟨none, 58, (some "Junction"), []⟩], 5, []⟩, ⟨"X6", [⟨none, 58, (some "Junction"), []⟩, ⟨none, 58, (some "Junction"), []⟩, ⟨none, 58, (some "Junction"), []⟩, ⟨none, 58, (some "Junction"), []⟩, ⟨none, 58, (some "Junction"), []⟩, ⟨none, 58, (some "Junction"), []⟩], 6, []⟩, ⟨"X7", [⟨none, 58, (some "Junction"), []⟩, ⟨none, 58, (some "Junction"), []⟩, ⟨none, 58, (some "Junction"), []⟩, ⟨none, 58, (some "Junction"), []⟩, ⟨none, 58, (some "Junction"), []⟩, ⟨none, 58, (some "Junction"), []⟩, ⟨none, 58, (some "Junction"), []⟩], 7, []⟩, ⟨"X8", [⟨none, 58, (some "Junction"), []⟩, ⟨none, 58, (some "Junction"), []⟩, ⟨none, 58, (some "Junction"), []⟩, ⟨none, 58, (some "Junction"), []⟩, ⟨none, 58, (some "Junction"), []⟩, ⟨none, 58, (some "Junction"), []⟩, ⟨none, 58, (some "Junction"), []⟩, ⟨none, 58, (some "Junction"), []⟩], 8, []⟩], []⟩,
   ⟨["xcm", "v3", "junction", "Junction"], [], .variant [⟨"Parachain", [⟨none, 59, (some "u32"), []⟩], 0, []⟩, ⟨"AccountId32", [⟨(some "network"), 60, (some "Option<NetworkId>"), []⟩, ⟨(some "id"), 1, (some "[u8; 32]"), []⟩], 1, []⟩, ⟨"AccountIndex64", [⟨(some "network"), 60, (some "Option<NetworkId>"), []⟩, ⟨(some "index"), 11, (some "u64"), []⟩], 2, []⟩, ⟨"AccountKey20", [⟨(some "network"), 60, (some "Option<NetworkId>"), []⟩, ⟨(some "key"), 62, (some "[u8; 20]"), []⟩], 3, []⟩, ⟨"PalletInstance", [⟨none, 2, (some "u8"), []⟩], 4, []⟩, ⟨"GeneralIndex", [⟨none, 63, (some "u128"), []⟩], 5, []⟩, ⟨"GeneralKey", [⟨(some "length"), 2, (some "u8"), []⟩, ⟨(some "data"), 1, (some "[u8; 32]"), []⟩], 6, []⟩, ⟨"OnlyChild", [], 7, []⟩, ⟨"Plurality", [⟨(some "id"), 64, (some "BodyId"), []⟩, ⟨(some "part"), 65, (some "BodyPart"), []⟩], 8, []⟩, ⟨"GlobalConsensus", [⟨none, 61, (some "NetworkId"), []⟩], 9, []⟩], []⟩,
   ⟨[], [], .compact 4, []⟩,
   ⟨["Option"], [("T", (some 61))], .variant [⟨"None", [], 0, []⟩, ⟨"Some", [⟨none, 61, none, []⟩], 1, []⟩], []⟩,
   ⟨["xcm", "v3", "junction", "NetworkId"], [], .variant [⟨"ByGenesis", [⟨none, 1, (some "[u8; 32]"), []⟩], 0, []⟩, ⟨"ByFork", [⟨(some "block_number"), 12, (some "u64"), []⟩, ⟨(some "block_hash"), 1, (some "[u8; 32]"), []⟩], 1, []⟩, ⟨"Polkadot", [], 2, []⟩, ⟨"Kusama", [], 3, []⟩, ⟨"Westend", [], 4, []⟩, ⟨"Rococo", [], 5, []⟩, ⟨"Wococo", [], 6, []⟩, ⟨"Ethereum", [⟨(some "chain_id"), 11, (some "u64"), []⟩], 7, []⟩, ⟨"BitcoinCore", [], 8, []⟩, ⟨"BitcoinCash", [], 9, []⟩, ⟨"PolkadotBulletin", [], 10, []⟩], []⟩,
   ⟨[], [], .array 20 2, []⟩,
   ⟨[], [], .compact 6, []⟩]

/-- Types 64 to 95 of `for_tests/polkadot1003003_v15`. -/
def types2 : List Typ :=
  [⟨["xcm", "v3", "junction", "BodyId"], [], .variant [⟨"Unit", [], 0, []⟩, ⟨"Moniker", [⟨none, 18, (some "[u8; 4]"), []⟩], 1, []⟩, ⟨"Index", [⟨none, 59, (some "u32"), []⟩], 2, []⟩, ⟨"Executive", [], 3, []⟩, ⟨"Technical", [], 4, []⟩, ⟨"Legislative", [], 5, []⟩, ⟨"Judicial", [], 6, []⟩, ⟨"Defense", [], 7, []⟩, ⟨"Administration", [], 8, []⟩, ⟨"Treasury", [], 9, []⟩], []⟩,
   ⟨["xcm", "v3", "junction", "BodyPart"], [], .variant [⟨"Voice", [], 0, []⟩, ⟨"Members", [⟨(some "count"), 59, (some "u32"), []⟩], 1, []⟩, ⟨"Fraction", [⟨(some "nom"), 59, (some "u32"), []⟩, ⟨(some "denom"), 59, (some "u32"), []⟩], 2, []⟩, ⟨"AtLeastProportion", [⟨(some "nom"), 59, (some "u32"), []⟩, ⟨(some "denom"), 59, (some "u32"), []⟩], 3, []⟩, ⟨"MoreThanProportion", [⟨(some "nom"), 59, (some "u32"), []⟩, ⟨(some "denom"), 59, (some "u32"), []⟩], 4, []⟩], []⟩,
   ⟨["xcm", "v3", "multiasset", "AssetId"], [], .variant [⟨"Concrete", [⟨none, 56, (some "MultiLocation"), []⟩], 0, []⟩, ⟨"Abstract", [⟨none, 1, (some "[u8; 32]"), []⟩], 1, []⟩], []⟩,
   ⟨["staging_xcm", "v4", "location", "Location"], [], .composite [⟨(some "parents"), 2, (some "u8"), []⟩, ⟨(some "interior"), 68, (some "Junctions"), []⟩], []⟩,
   ⟨["staging_xcm", "v4", "junctions", "Junctions"], [], .variant [⟨"Here", [], 0, []⟩, ⟨"X1", [⟨none, 69, (some "Arc<[Junction; 1]>"), []⟩], 1, []⟩, ⟨"X2", [⟨none, 73, (some "Arc<[Junction; 2]>"), []⟩], 2, []⟩, ⟨"X3", [⟨none, 74, (some "Arc<[Junction; 3]>"), []⟩], 3, []⟩, ⟨"X4", [⟨none, 75, (some "Arc<[Junction; 4]>"), []⟩], 4, []⟩, ⟨"X5", [⟨none, 76, (some "Arc<[Junction; 5]>"), []⟩], 5, []⟩, ⟨"X6", [⟨none, 77, (some "Arc<[Junction; 6]>"), []⟩], 6, []⟩, ⟨"X7", [⟨none, 78, (some "Arc<[Junction; 7]>"), []⟩], 7, []⟩, ⟨"X8", [⟨none, 79, (some "Arc<[Junction; 8]>"), []⟩], 8, []⟩], []⟩,
   ⟨[], [], .array 1 70, []⟩,
   ⟨["staging_xcm", "v4", "junction", "Junction"], [], .variant [⟨"Parachain", [⟨none, 59, (some "u32"), []⟩], 0, []⟩, ⟨"AccountId32", [⟨(some "network"), 71, (some "Option<NetworkId>"), []⟩, ⟨(some "id"), 1, (some "[u8; 32]"), []⟩], 1, []⟩, ⟨"AccountIndex64", [⟨(some "network"), 71, (some "Option<NetworkId>"), []⟩, ⟨(some "index"), 11, (some "u64"), []⟩], 2, []⟩, ⟨"AccountKey20", [⟨(some "network"), 71, (some "Option<NetworkId>"), []⟩, ⟨(some "key"), 62, (some "[u8; 20]"), []⟩], 3, []⟩, ⟨"PalletInstance", [⟨none, 2, (some "u8"), []⟩], 4, []⟩, ⟨"GeneralIndex", [⟨none, 63, (some "u128"), []⟩], 5, []⟩, ⟨"GeneralKey", [⟨(some "length"), 2, (some "u8"), []⟩, ⟨(some "data"), 1, (some "[u8; 32]"), []⟩], 6, []⟩, ⟨"OnlyChild", [], 7, []⟩, ⟨"Plurality", [⟨(some "id"), 64, (some "BodyId"), []⟩, ⟨(some "part"), 65, (some "BodyPart"), []⟩], 8, []⟩, ⟨"GlobalConsensus", [⟨none, 72, (some "NetworkId"), []⟩], 9, []⟩], []⟩,
   ⟨["Option"], [("T", (some 72))], .variant [⟨"None", [], 0, []⟩, ⟨"Some", [⟨none, 72, none, []⟩], 1, []⟩], []⟩,
   ⟨["staging_xcm", "v4", "junction", "NetworkId"], [], .variant [⟨"ByGenesis", [⟨none, 1, (some "[u8; 32]"), []⟩], 0, []⟩, ⟨"ByFork", [⟨(some "block_number"), 12, (some "u64"), []⟩, ⟨(some "block_hash"), 1, (some "[u8; 32]"), []⟩], 1, []⟩, ⟨"Polkadot", [], 2, []⟩, ⟨"Kusama", [], 3, []⟩, ⟨"Westend", [], 4, []⟩, ⟨"Rococo", [], 5, []⟩, ⟨"Wococo", [], 6, []⟩, ⟨"Ethereum", [⟨(some "chain_id"), 11, (some "u64"), []⟩], 7, []⟩, ⟨"BitcoinCore", [], 8, []⟩, ⟨"BitcoinCash", [], 9, []⟩, ⟨"PolkadotBulletin", [], 10, []⟩], []⟩,
   ⟨[], [], .array 2 70, []⟩,
   ⟨[], [], .array 3 70, []⟩,
   ⟨[], [], .array 4 70, []⟩,
   ⟨[], [], .array 5 70, []⟩,
   ⟨[], [], .array 6 70, []⟩,
   ⟨[], [], .array 7 70, []⟩,
   ⟨[], [], .array 8 70, []⟩,
   ⟨["staging_xcm", "v4", "asset", "AssetId"], [], .composite [⟨none, 67, (some "Location"), []⟩], []⟩,
   ⟨["xcm", "VersionedLocation"], [], .variant [⟨"V2", [⟨none, 82, (some "v2::MultiLocation"), []⟩], 1, []⟩, ⟨"V3", [⟨none, 56, (some "v3::MultiLocation"), []⟩], 3, []⟩, ⟨"V4", [⟨none, 67, (some "v4::Location"), []⟩], 4, []⟩], []⟩,
   ⟨["xcm", "v2", "multilocation", "MultiLocation"], [], .composite [⟨(some "parents"), 2, (some "u8"), []⟩, ⟨(some "interior"), 83, (some "Junctions"), []⟩], []⟩,
   ⟨["xcm", "v2", "multilocation", "Junctions"], [], .variant [⟨"Here", [], 0, []⟩, ⟨"X1", [⟨none, 84, (some "Junction"), []⟩], 1, []⟩, ⟨"X2", [⟨none, 84, (some "Junction"), []⟩, ⟨none, 84, (some "Junction"), []⟩], 2, []⟩, ⟨"X3", [⟨none, 84, (some "Junction"), []⟩, ⟨none, 84, (some "Junction"), []⟩, ⟨none, 84, (some "Junction"), []⟩], 3, []⟩, ⟨"X4", [⟨none, 84, (some "Junction"), []⟩, ⟨none, 84, (some "Junction"), []⟩, ⟨none, 84, (some "Junction"), []⟩, ⟨none, 84, (some "Junction"), []⟩], 4, []⟩, ⟨"X5", [⟨none, 84, (some "Junction"), []⟩, ⟨none, 84, (some "Junction"), []⟩, ⟨none, 84, (some "Junction"), []⟩, ⟨none, 84, (some "Junction"), []⟩, ⟨none, 84, (some "Junction"), []⟩], 5, []⟩, ⟨"X6", [⟨none, 84, (some "Junction"), []⟩, ⟨none, 84, (some "Junction"), []⟩, ⟨none, 84, (some "Junction"), []⟩, ⟨none, 84, (some "Junction"), []⟩, ⟨none, 84, (some "Junction"), []⟩, ⟨none, 84, (some "Junction"), []⟩], 6, []⟩, ⟨"X7", [⟨none, 84, (some "Junction"), []⟩, ⟨none, 84, (some "Junction"), []⟩, ⟨none, 84, (some "Junction"), []⟩, ⟨none, 84, (some "Junction"), []⟩, ⟨none, 84, (some "Junction"), []⟩, ⟨none, 84, (some "Junction"), []⟩, ⟨none, 84, (some "Junction"), []⟩], 7, []⟩, ⟨"X8", [⟨none, 84, (some "Junction"), []⟩, ⟨none, 84, (some "Junction"), []⟩, ⟨none, 84, (some "Junction"), []⟩, ⟨none, 84, (some "Junction"), []⟩, ⟨none, 84, (some "Junction"), []⟩, ⟨none, 84, (some "Junction"), []⟩, ⟨none, 84, (some "Junction"), []⟩, ⟨none, 84, (some "Junction"), []⟩], 8, []⟩], []⟩,
   ⟨["xcm", "v2", "junction", "Junction"], [], .variant [⟨"Parachain", [⟨none, 59, (some "u32"), []⟩], 0, []⟩, ⟨"AccountId32", [⟨(some "network"), 85, (some "NetworkId"), []⟩, ⟨(some "id"), 1, (some "[u8; 32]"), []⟩], 1, []⟩, ⟨"AccountIndex64", [⟨(some "network"), 85, (some "NetworkId"), []⟩, ⟨(some "index"), 11, (some "u64"), []⟩], 2, []⟩, ⟨"AccountKey20", [⟨(some "network"), 85, (some "NetworkId"), []⟩, ⟨(some "key"), 62, (some "[u8; 20]"), []⟩], 3, []⟩, ⟨"PalletInstance", [⟨none, 2, (some "u8"), []⟩], 4, []⟩, ⟨"GeneralIndex", [⟨none, 63, (some "u128"), []⟩], 5, []⟩, ⟨"GeneralKey", [⟨none, 86, (some "WeakBoundedVec<u8, ConstU32<32>>"), []⟩], 6, []⟩, ⟨"OnlyChild", [], 7, []⟩, ⟨"Plurality", [⟨(some "id"), 87, (some "BodyId"), []⟩, ⟨(some "part"), 88, (some "BodyPart"), []⟩], 8, []⟩], []⟩,
   ⟨["xcm", "v2", "NetworkId"], [], .variant [⟨"Any", [], 0, []⟩, ⟨"Named", [⟨none, 86, (some "WeakBoundedVec<u8, ConstU32<32>>"), []⟩], 1, []⟩, ⟨"Polkadot", [], 2, []⟩, ⟨"Kusama", [], 3, []⟩], []⟩,
   ⟨["bounded_collections", "weak_bounded_vec", "WeakBoundedVec"], [("T", (some 2)), ("S", none)], .composite [⟨none, 14, (some "Vec<T>"), []⟩], []⟩,
   ⟨["xcm", "v2", "BodyId"], [], .variant [⟨"Unit", [], 0, []⟩, ⟨"Named", [⟨none, 86, (some "WeakBoundedVec<u8, ConstU32<32>>"), []⟩], 1, []⟩, ⟨"Index", [⟨none, 59, (some "u32"), []⟩], 2, []⟩, ⟨"Executive", [], 3, []⟩, ⟨"Technical", [], 4, []⟩, ⟨"Legislative", [], 5, []⟩, ⟨"Judicial", [], 6, []⟩, ⟨"Defense", [], 7, []⟩, ⟨"Administration", [], 8, []⟩, ⟨"Treasury", [], 9, []⟩], []⟩,
   ⟨["xcm", "v2", "BodyPart"], [], .variant [⟨"Voice", [], 0, []⟩, ⟨"Members", [⟨(some "count"), 59, (some "u32"), []⟩], 1, []⟩, ⟨"Fraction", [⟨(some "nom"), 59, (some "u32"), []⟩, ⟨(some "denom"), 59, (some "u32"), []⟩], 2, []⟩, ⟨"AtLeastProportion", [⟨(some "nom"), 59, (some "u32"), []⟩, ⟨(some "denom"), 59, (some "u32"), []⟩], 3, []⟩, ⟨"MoreThanProportion", [⟨(some "nom"), 59, (some "u32"), []⟩, ⟨(some "denom"), 59, (some "u32"), []⟩], 4, []⟩], []⟩,
   ⟨["pallet_conviction_voting", "pallet", "Event"], [("T", none), ("I", none)], .variant [⟨"Delegated", [⟨none, 0, (some "T::AccountId"), []⟩, ⟨none, 0, (some "T::AccountId"), []⟩], 0, []⟩, ⟨"Undelegated", [⟨none, 0, (some "T::AccountId"), []⟩], 1, []⟩], []⟩,
   ⟨["pallet_referenda", "pallet", "Event"], [("T", none), ("I", none)], .variant [⟨"Submitted", [⟨(some "index"), 4, (some "ReferendumIndex"), []⟩, ⟨(some "track"), 91, (some "TrackIdOf<T, I>"), []⟩, ⟨(some "proposal"), 92, (some "BoundedCallOf<T, I>"), []⟩], 0, []⟩, ⟨"DecisionDepositPlaced", [⟨(some "index"), 4, (some "ReferendumIndex"), []⟩, ⟨(some "who"), 0, (some "T::AccountId"), []⟩, ⟨(some "amount"), 6, (some "BalanceOf<T, I>"), []⟩], 1, []⟩, ⟨"DecisionDepositRefunded", [⟨(some "index"), 4, (some "ReferendumIndex"), []⟩, ⟨(some "who"), 0, (some "T::AccountId"), []⟩, ⟨(some "amount"), 6, (some "BalanceOf<T, I>"), []⟩], 2, []⟩, ⟨"DepositSlashed", [⟨(some "who"), 0, (some "T::AccountId"), []⟩, ⟨(some "amount"), 6, (some "BalanceOf<T, I>"), []⟩], 3, []⟩, ⟨"DecisionStarted", [⟨(some "index"), 4, (some "ReferendumIndex"), []⟩, ⟨(some "track"), 91, (some "TrackIdOf<T, I>"), []⟩, ⟨(some "proposal"), 92, (some "BoundedCallOf<T, I>"), []⟩, ⟨(some "tally"), 448, (some "T::Tally"), []⟩], 4, []⟩, ⟨"ConfirmStarted", [⟨(some "index"), 4, (some "ReferendumIndex"), []⟩], 5, []⟩, ⟨"ConfirmAborted", [⟨(some "index"), 4, (some "ReferendumIndex"), []⟩], 6, []⟩, ⟨"Confirmed", [⟨(some "index"), 4, (some "ReferendumIndex"), []⟩, ⟨(some "tally"), 448, (some "T::Tally"), []⟩], 7, []⟩, ⟨"Approved", [⟨(some "index"), 4, (some "ReferendumIndex"), []⟩], 8, []⟩, ⟨"Rejected", [⟨(some "index"), 4, (some "ReferendumIndex"), []⟩, ⟨(some "tally"), 448, (some "T::Tally"), []⟩], 9, []⟩, ⟨"TimedOut", [⟨(some "index"), 4, (some "ReferendumIndex"), []⟩, ⟨(some "tally"), 448, (some "T::Tally"), []⟩], 10, []⟩, ⟨"Cancelled", [⟨(some "index"), 4, (some "ReferendumIndex"), []⟩, ⟨(some "tally"), 448, (some "T::Tally"), []⟩], 11, []⟩, ⟨"Killed", [⟨(some "index"), 4, (some "ReferendumIndex"), []⟩, ⟨(some "tally"), 448, (some "T::Tally"), []⟩], 12, []⟩, ⟨"SubmissionDepositRefunded", [⟨(some "index"), 4, (some "ReferendumIndex"), []⟩, ⟨(some "who"), 0, (some "T::AccountId"), []⟩, ⟨(some "amount"), 6, (some "BalanceOf<T, I>"), []⟩], 13, []⟩, ⟨"MetadataSet", [⟨(some "index"), 4, (some "ReferendumIndex"), []⟩, ⟨(some "hash"), 13, (some "T::Hash"), []⟩], 14, []⟩, ⟨"MetadataCleared", [⟨(some "index"), 4, (some "ReferendumIndex"), []⟩, ⟨(some "hash"), 13, (some "T::Hash"), []⟩], 15, []⟩], []⟩,
   ⟨[], [], .primitive .u16, []⟩,
   ⟨["frame_support", "traits", "preimages", "Bounded"], [("T", (some 93)), ("H", (some 446))], .variant [⟨"Legacy", [⟨(some "hash"), 13, (some "H::Output"), []⟩], 0, []⟩, ⟨"Inline", [⟨none, 447, (some "BoundedInline"), []⟩], 1, []⟩, ⟨"Lookup", [⟨(some "hash"), 13, (some "H::Output"), []⟩, ⟨(some "len"), 4, (some "u32"), []⟩], 2, []⟩], []⟩,
   ⟨["polkadot_runtime", "RuntimeCall"], [], .variant [⟨"System", [⟨none, 94, (some "self::sp_api_hidden_includes_construct_runtime::hidden_include::dispatch\n::CallableCallFor<System, Runtime>"), []⟩], 0, []⟩, ⟨"Scheduler", [⟨none, 98, (some "self::sp_api_hidden_includes_construct_runtime::hidden_include::dispatch\n::CallableCallFor<Scheduler, Runtime>"), []⟩], 1, []⟩, ⟨"Preimage", [⟨none, 100, (some "self::sp_api_hidden_includes_construct_runtime::hidden_include::dispatch\n::CallableCallFor<Preimage, Runtime>"), []⟩], 10, []⟩, ⟨"Babe", [⟨none, 102, (some "self::sp_api_hidden_includes_construct_runtime::hidden_include::dispatch\n::CallableCallFor<Babe, Runtime>"), []⟩], 2, []⟩, ⟨"Timestamp", [⟨none, 111, (some "self::sp_api_hidden_includes_construct_runtime::hidden_include::dispatch\n::CallableCallFor<Timestamp, Runtime>"), []⟩], 3, []⟩, ⟨"Indices", [⟨none, 112, (some "self::sp_api_hidden_includes_construct_runtime::hidden_include::dispatch\n::CallableCallFor<Indices, Runtime>"), []⟩], 4, []⟩, ⟨"Balances", [⟨none, 115, (some "self::sp_api_hidden_includes_construct_runtime::hidden_include::dispatch\n::CallableCallFor<Balances, Runtime>"), []⟩], 5, []⟩, ⟨"Staking", [⟨none, 118, (some "self::sp_api_hidden_includes_construct_runtime::hidden_include::dispatch\n::CallableCallFor<Staking, Runtime>"), []⟩], 7, []⟩, ⟨"Session", [⟨none, 133, (some "self::sp_api_hidden_includes_construct_runtime::hidden_include::dispatch\n::CallableCallFor<Session, Runtime>"), []⟩], 9, []⟩, ⟨"Grandpa", [⟨none, 140, (some "self::sp_api_hidden_includes_construct_runtime::hidden_include::dispatch\n::CallableCallFor<Grandpa, Runtime>"), []⟩], 11, []⟩, ⟨"Treasury", [⟨none, 151, (some "self::sp_api_hidden_includes_construct_runtime::hidden_include::dispatch\n::CallableCallFor<Treasury, Runtime>"), []⟩], 19, []⟩, ⟨"ConvictionVoting", [⟨none, 153, (some "self::sp_api_hidden_includes_construct_runtime::hidden_include::dispatch\n::CallableCallFor<ConvictionVoting, Runtime>"), []⟩], 20, []⟩, ⟨"Referenda", [⟨none, 158, (some "self::sp_api_hidden_includes_construct_runtime::hidden_include::dispatch\n::CallableCallFor<Referenda, Runtime>"), []⟩], 21, []⟩, ⟨"Whitelist", [⟨none, 168, (some "self::sp_api_hidden_includes_construct_runtime::hidden_include::dispatch\n::CallableCallFor<Whitelist, Runtime>"), []⟩], 23, []⟩, ⟨"Parameters", [⟨none, 169, (some "self::sp_api_hidden_includes_construct_runtime::hidden_include::dispatch\n::CallableCallFor<Parameters, Runtime>"), []⟩], 27, []⟩, ⟨"Claims", [⟨none, 180, (some "self::sp_api_hidden_includes_construct_runtime::hidden_include::dispatch\n::CallableCallFor<Claims, Runtime>"), []⟩], 24, []⟩, ⟨"Vesting", [⟨none, 188, (some "self::sp_api_hidden_includes_construct_runtime::hidden_include::dispatch\n::CallableCallFor<Vesting, Runtime>"), []⟩], 25, []⟩, ⟨"Utility", [⟨none, 190, (some "self::sp_api_hidden_includes_construct_runtime::hidden_include::dispatch\n::CallableCallFor<Utility, Runtime>"), []⟩], 26, []⟩, ⟨"Proxy", [⟨none, 192, (some "self::sp_api_hidden_includes_construct_runtime::hidden_include::dispatch\n::CallableCallFor<Proxy, Runtime>"), []⟩], 29, []⟩, ⟨"Multisig", [⟨none, 195, (some "self::sp_api_hidden_includes_construct_runtime::hidden_include::dispatch\n::CallableCallFor<Multisig, Runtime>"), []⟩], 30, []⟩, ⟨"Bounties", [⟨none, 198, (some "self::sp_api_hidden_includes_construct_runtime::hidden_include::dispatch\n::CallableCallFor<Bounties, Runtime>"), []⟩], 34, []⟩, ⟨"ChildBounties", [⟨none, 199, (some "self::sp_api_hidden_includes_construct_runtime::hidden_include::dispatch\n::CallableCallFor<ChildBounties, Runtime>"), []⟩], 38, []⟩, ⟨"ElectionProviderMultiPhase", [⟨none, 200, (some "self::sp_api_hidden_includes_construct_runtime::hidden_include::dispatch\n::CallableCallFor<ElectionProviderMultiPhase, Runtime>"), []⟩], 36, []⟩, ⟨"VoterList", [⟨none, 261, (some "self::sp_api_hidden_includes_construct_runtime::hidden_include::dispatch\n::CallableCallFor<VoterList, Runtime>"), []⟩], 37, []⟩, ⟨"NominationPools", [⟨none, 262, (some "self::sp_api_hidden_includes_construct_runtime::hidden_include::dispatch\n::CallableCallFor<NominationPools, Runtime>"), []⟩], 39, []⟩, ⟨"FastUnstake", [⟨none, 275, (some "self::sp_api_hidden_includes_construct_runtime::hidden_include::dispatch\n::CallableCallFor<FastUnstake, Runtime>"), []⟩], 40, []⟩, ⟨"Configuration", [⟨none, 276, (some "self::sp_api_hidden_includes_construct_runtime::hidden_include::dispatch\n::CallableCallFor<Configuration, Runtime>"), []⟩], 51, []⟩, ⟨"ParasShared", [⟨none, 285, (some "self::sp_api_hidden_includes_construct_runtime::hidden_include::dispatch\n::CallableCallFor<ParasShared, Runtime>"), []⟩], 52, []⟩, ⟨"ParaInclusion", [⟨none, 286, (some "self::sp_api_hidden_includes_construct_runtime::hidden_include::dispatch\n::CallableCallFor<ParaInclusion, Runtime>"), []⟩], 53, []⟩, ⟨"ParaInherent", [⟨none, 287, (some "self::sp_api_hidden_includes_construct_runtime::hidden_include::dispatch\n::CallableCallFor<ParaInherent, Runtime>"), []⟩], 54, []⟩, ⟨"Paras", [⟨none, 322, (some "self::sp_api_hidden_includes_construct_runtime::hidden_include::dispatch\n::CallableCallFor<Paras, Runtime>"), []⟩], 56, []⟩, ⟨"Initializer", [⟨none, 324, (some "self::sp_api_hidden_includes_construct_runtime::hidden_include::dispatch\n::CallableCallFor<Initializer, Runtime>"), []⟩], 57, []⟩, ⟨"Hrmp", [⟨none, 325, (some "self::sp_api_hidden_includes_construct_runtime::hidden_include::dispatch\n::CallableCallFor<Hrmp, Runtime>"), []⟩], 60, []⟩, ⟨"ParasDisputes", [⟨none, 327, (some "self::sp_api_hidden_includes_construct_runtime::hidden_include::dispatch\n::CallableCallFor<ParasDisputes, Runtime>"), []⟩], 62, []⟩, ⟨"ParasSlashing", [⟨none, 328, (some "self::sp_api_hidden_includes_construct_runtime::hidden_include::dispatch\n::CallableCallFor<ParasSlashing, Runtime>"), []⟩], 63, []⟩, ⟨"OnDemand", [⟨none, 332, (some "self::sp_api_hidden_includes_construct_runtime::hidden_include::dispatch\n::CallableCallFor<OnDemand, Runtime>"), []⟩], 64, []⟩, ⟨"Registrar", [⟨none, 333, (some "self::sp_api_hidden_includes_construct_runtime::hidden_include::dispatch\n::CallableCallFor<Registrar, Runtime>"), []⟩], 70, []⟩, ⟨"Slots", [⟨none, 334, (some "self::sp_api_hidden_includes_construct_runtime::hidden_include::dispatch\n::CallableCallFor<Slots, Runtime>"), []⟩], 71, []⟩, ⟨"Auctions", [⟨none, 335, (some "self::sp_api_hidden_includes_construct_runtime::hidden_include::dispatch\n::CallableCallFor<Auctions, Runtime>"), []⟩], 72, []⟩, ⟨"Crowdloan", [⟨none, 337, (some "self::sp_api_hidden_includes_construct_runtime::hidden_include::dispatch\n::CallableCallFor<Crowdloan, Runtime>"), []⟩], 73, []⟩, ⟨"Coretime", [⟨none, 342, (some "self::sp_api_hidden_includes_construct_runtime::hidden_include::dispatch\n::CallableCallFor<Coretime, Runtime>"), []⟩], 74, []⟩, ⟨"StateTrieMigration", [⟨none, 347, (some "self::sp_api_hidden_includes_construct_runtime::hidden_include::dispatch\n::CallableCallFor<StateTrieMigration, Runtime>"), []⟩], 98, []⟩, ⟨"XcmPallet", [⟨none, 353, (some "self::sp_api_hidden_includes_construct_runtime::hidden_include::dispatch\n::CallableCallFor<XcmPallet, Runtime>"), []⟩], 99, []⟩, ⟨"MessageQueue", [⟨none, 432, (some "self::sp_api_hidden_includes_construct_runtime::hidden_include::dispatch\n::CallableCallFor<MessageQueue, Runtime>"), []⟩], 100, []⟩, ⟨"AssetRate", [⟨none, 435, (some "self::sp_api_hidden_includes_construct_runtime::hidden_include::dispatch\n::CallableCallFor<AssetRate, Runtime>"), []⟩], 101, []⟩, ⟨"Beefy", [⟨none, 437, (some "self::sp_api_hidden_includes_construct_runtime::hidden_include::dispatch\n::CallableCallFor<Beefy, Runtime>"), []⟩], 200, []⟩], []⟩,
   ⟨["frame_system", "pallet", "Call"], [("T", none)], .variant [⟨"remark", [⟨(some "remark"), 14, (some "Vec<u8>"), []⟩], 0, []⟩, ⟨"set_heap_pages", [⟨(some "pages"), 12, (some "u64"), []⟩], 1, []⟩, ⟨"set_code", [⟨(some "code"), 14, (some "Vec<u8>"), []⟩], 2, []⟩, ⟨"set_code_without_checks", [⟨(some "code"), 14, (some "Vec<u8>"), []⟩], 3, []⟩, ⟨"set_storage", [⟨(some "items"), 95, (some "Vec<KeyValue>"), []⟩], 4, []⟩, ⟨"kill_storage", [⟨(some "keys"), 97, (some "Vec<Key>"), []⟩], 5, []⟩, ⟨"kill_prefix", [⟨(some "prefix"), 14, (some "Key"), []⟩, ⟨(some "subkeys"), 4, (some "u32"), []⟩], 6, []⟩, ⟨"remark_with_event", [⟨(some "remark"), 14, (some "Vec<u8>"), []⟩], 7, []⟩, ⟨"authorize_upgrade", [⟨(some "code_hash"), 13, (some "T::Hash"), []⟩], 9, []⟩, ⟨"authorize_upgrade_without_checks", [⟨(some "code_hash"), 13, (some "T::Hash"), []⟩], 10, []⟩, ⟨"apply_authorized_upgrade", [⟨(some "code"), 14, (some "Vec<u8>"), []⟩], 11, []⟩], []⟩,
   ⟨[], [], .sequence 96, []⟩]

/-- Types 96 to 127 of `for_tests/polkadot1003003_v15`. -/
def types3 : List Typ :=
  [⟨[], [], .tuple [14, 14], []⟩,
   ⟨[], [], .sequence 14, []⟩,
   ⟨["pallet_scheduler", "pallet", "Call"], [("T", none)], .variant [⟨"schedule", [⟨(some "when"), 4, (some "BlockNumberFor<T>"), []⟩, ⟨(some "maybe_periodic"), 99, (some "Option<schedule::Period<BlockNumberFor<T>>>"), []⟩, ⟨(some "priority"), 2, (some "schedule::Priority"), []⟩, ⟨(some "call"), 93, (some "Box<<T as Config>::RuntimeCall>"), []⟩], 0, []⟩, ⟨"cancel", [⟨(some "when"), 4, (some "BlockNumberFor<T>"), []⟩, ⟨(some "index"), 4, (some "u32"), []⟩], 1, []⟩, ⟨"schedule_named", [⟨(some "id"), 1, (some "TaskName"), []⟩, ⟨(some "when"), 4, (some "BlockNumberFor<T>"), []⟩, ⟨(some "maybe_periodic"), 99, (some "Option<schedule::Period<BlockNumberFor<T>>>"), []⟩, ⟨(some "priority"), 2, (some "schedule::Priority"), []⟩, ⟨(some "call"), 93, (some "Box<<T as Config>::RuntimeCall>"), []⟩], 2, []⟩, ⟨"cancel_named", [⟨(some "id"), 1, (some "TaskName"), []⟩], 3, []⟩, ⟨"schedule_after", [⟨(some "after"), 4, (some "BlockNumberFor<T>"), []⟩, ⟨(some "maybe_periodic"), 99, (some "Option<schedule::Period<BlockNumberFor<T>>>"), []⟩, ⟨(some "priority"), 2, (some "schedule::Priority"), []⟩, ⟨(some "call"), 93, (some "Box<<T as Config>::RuntimeCall>"), []⟩], 4, []⟩, ⟨"schedule_named_after", [⟨(some "id"), 1, (some "TaskName"), []⟩, ⟨(some "after"), 4, (some "BlockNumberFor<T>"), []⟩, ⟨(some "maybe_periodic"), 99, (some "Option<schedule::Period<BlockNumberFor<T>>>"), []⟩, ⟨(some "priority"), 2, (some "schedule::Priority"), []⟩, ⟨(some "call"), 93, (some "Box<<T as Config>::RuntimeCall>"), []⟩], 5, []⟩, ⟨"set_retry", [⟨(some "task"), 32, (some "TaskAddress<BlockNumberFor<T>>"), []⟩, ⟨(some "retries"), 2, (some "u8"), []⟩, ⟨(some "period"), 4, (some "BlockNumberFor<T>"), []⟩], 6, []⟩, ⟨"set_retry_named", [⟨(some "id"), 1, (some "TaskName"), []⟩, ⟨(some "retries"), 2, (some "u8"), []⟩, ⟨(some "period"), 4, (some "BlockNumberFor<T>"), []⟩], 7, []⟩, ⟨"cancel_retry", [⟨(some "task"), 32, (some "TaskAddress<BlockNumberFor<T>>"), []⟩], 8, []⟩, ⟨"cancel_retry_named", [⟨(some "id"), 1, (some "TaskName"), []⟩], 9, []⟩], []⟩,
   ⟨["Option"], [("T", (some 32))], .variant [⟨"None", [], 0, []⟩, ⟨"Some", [⟨none, 32, none, []⟩], 1, []⟩], []⟩,
   ⟨["pallet_preimage", "pallet", "Call"], [("T", none)], .variant [⟨"note_preimage", [⟨(some "bytes"), 14, (some "Vec<u8>"), []⟩], 0, []⟩, ⟨"unnote_preimage", [⟨(some "hash"), 13, (some "T::Hash"), []⟩], 1, []⟩, ⟨"request_preimage", [⟨(some "hash"), 13, (some "T::Hash"), []⟩], 2, []⟩, ⟨"unrequest_preimage", [⟨(some "hash"), 13, (some "T::Hash"), []⟩], 3, []⟩, ⟨"ensure_updated", [⟨(some "hashes"), 101, (some "Vec<T::Hash>"), []⟩], 4, []⟩], []⟩,
   ⟨[], [], .sequence 13, []⟩,
   ⟨["pallet_babe", "pallet", "Call"], [("T", none)], .variant [⟨"report_equivocation", [⟨(some "equivocation_proof"), 103, (some "Box<EquivocationProof<HeaderFor<T>>>"), []⟩, ⟨(some "key_owner_proof"), 107, (some "T::KeyOwnerProof"), []⟩], 0, []⟩, ⟨"report_equivocation_unsigned", [⟨(some "equivocation_proof"), 103, (some "Box<EquivocationProof<HeaderFor<T>>>"), []⟩, ⟨(some "key_owner_proof"), 107, (some "T::KeyOwnerProof"), []⟩], 1, []⟩, ⟨"plan_config_change", [⟨(some "config"), 108, (some "NextConfigDescriptor"), []⟩], 2, []⟩], []⟩,
   ⟨["sp_consensus_slots", "EquivocationProof"], [("Header", (some 104)), ("Id", (some 105))], .composite [⟨(some "offender"), 105, (some "Id"), []⟩, ⟨(some "slot"), 106, (some "Slot"), []⟩, ⟨(some "first_header"), 104, (some "Header"), []⟩, ⟨(some "second_header"), 104, (some "Header"), []⟩], []⟩,
   ⟨["sp_runtime", "generic", "header", "Header"], [("Number", (some 4)), ("Hash", none)], .composite [⟨(some "parent_hash"), 13, (some "Hash::Output"), []⟩, ⟨(some "number"), 59, (some "Number"), []⟩, ⟨(some "state_root"), 13, (some "Hash::Output"), []⟩, ⟨(some "extrinsics_root"), 13, (some "Hash::Output"), []⟩, ⟨(some "digest"), 15, (some "Digest"), []⟩], []⟩,
   ⟨["sp_consensus_babe", "app", "Public"], [], .composite [⟨none, 1, (some "sr25519::Public"), []⟩], []⟩,
   ⟨["sp_consensus_slots", "Slot"], [], .composite [⟨none, 12, (some "u64"), []⟩], []⟩,
   ⟨["sp_session", "MembershipProof"], [], .composite [⟨(some "session"), 4, (some "SessionIndex"), []⟩, ⟨(some "trie_nodes"), 97, (some "Vec<Vec<u8>>"), []⟩, ⟨(some "validator_count"), 4, (some "ValidatorCount"), []⟩], []⟩,
   ⟨["sp_consensus_babe", "digests", "NextConfigDescriptor"], [], .variant [⟨"V1", [⟨(some "c"), 109, (some "(u64, u64)"), []⟩, ⟨(some "allowed_slots"), 110, (some "AllowedSlots"), []⟩], 1, []⟩], []⟩,
   ⟨[], [], .tuple [12, 12], []⟩,
   ⟨["sp_consensus_babe", "AllowedSlots"], [], .variant [⟨"PrimarySlots", [], 0, []⟩, ⟨"PrimaryAndSecondaryPlainSlots", [], 1, []⟩, ⟨"PrimaryAndSecondaryVRFSlots", [], 2, []⟩], []⟩,
   ⟨["pallet_timestamp", "pallet", "Call"], [("T", none)], .variant [⟨"set", [⟨(some "now"), 11, (some "T::Moment"), []⟩], 0, []⟩], []⟩,
   ⟨["pallet_indices", "pallet", "Call"], [("T", none)], .variant [⟨"claim", [⟨(some "index"), 4, (some "T::AccountIndex"), []⟩], 0, []⟩, ⟨"transfer", [⟨(some "new"), 113, (some "AccountIdLookupOf<T>"), []⟩, ⟨(some "index"), 4, (some "T::AccountIndex"), []⟩], 1, []⟩, ⟨"free", [⟨(some "index"), 4, (some "T::AccountIndex"), []⟩], 2, []⟩, ⟨"force_transfer", [⟨(some "new"), 113, (some "AccountIdLookupOf<T>"), []⟩, ⟨(some "index"), 4, (some "T::AccountIndex"), []⟩, ⟨(some "freeze"), 8, (some "bool"), []⟩], 3, []⟩, ⟨"freeze", [⟨(some "index"), 4, (some "T::AccountIndex"), []⟩], 4, []⟩], []⟩,
   ⟨["sp_runtime", "multiaddress", "MultiAddress"], [("AccountId", (some 0)), ("AccountIndex", (some 35))], .variant [⟨"Id", [⟨none, 0, (some "AccountId"), []⟩], 0, []⟩, ⟨"Index", [⟨none, 114, (some "AccountIndex"), []⟩], 1, []⟩, ⟨"Raw", [⟨none, 14, (some "Vec<u8>"), []⟩], 2, []⟩, ⟨"Address32", [⟨none, 1, (some "[u8; 32]"), []⟩], 3, []⟩, ⟨"Address20", [⟨none, 62, (some "[u8; 20]"), []⟩], 4, []⟩], []⟩,
   ⟨[], [], .compact 35, []⟩,
   ⟨["pallet_balances", "pallet", "Call"], [("T", none), ("I", none)], .variant [⟨"transfer_allow_death", [⟨(some "dest"), 113, (some "AccountIdLookupOf<T>"), []⟩, ⟨(some "value"), 63, (some "T::Balance"), []⟩], 0, []⟩, ⟨"force_transfer", [⟨(some "source"), 113, (some "AccountIdLookupOf<T>"), []⟩, ⟨(some "dest"), 113, (some "AccountIdLookupOf<T>"), []⟩, ⟨(some "value"), 63, (some "T::Balance"), []⟩], 2, []⟩, ⟨"transfer_keep_alive", [⟨(some "dest"), 113, (some "AccountIdLookupOf<T>"), []⟩, ⟨(some "value"), 63, (some "T::Balance"), []⟩], 3, []⟩, ⟨"transfer_all", [⟨(some "dest"), 113, (some "AccountIdLookupOf<T>"), []⟩, ⟨(some "keep_alive"), 8, (some "bool"), []⟩], 4, []⟩, ⟨"force_unreserve", [⟨(some "who"), 113, (some "AccountIdLookupOf<T>"), []⟩, ⟨(some "amount"), 6, (some "T::Balance"), []⟩], 5, []⟩, ⟨"upgrade_accounts", [⟨(some "who"), 116, (some "Vec<T::AccountId>"), []⟩], 6, []⟩, ⟨"force_set_balance", [⟨(some "who"), 113, (some "AccountIdLookupOf<T>"), []⟩, ⟨(some "new_free"), 63, (some "T::Balance"), []⟩], 8, []⟩, ⟨"force_adjust_total_issuance", [⟨(some "direction"), 117, (some "AdjustmentDirection"), []⟩, ⟨(some "delta"), 63, (some "T::Balance"), []⟩], 9, []⟩, ⟨"burn", [⟨(some "value"), 63, (some "T::Balance"), []⟩, ⟨(some "keep_alive"), 8, (some "bool"), []⟩], 10, []⟩], []⟩,
   ⟨[], [], .sequence 0, []⟩,
   ⟨["pallet_balances", "types", "AdjustmentDirection"], [], .variant [⟨"Increase", [], 0, []⟩, ⟨"Decrease", [], 1, []⟩], []⟩,
   ⟨["pallet_staking", "pallet", "pallet", "Call"], [("T", none)], .variant [⟨"bond", [⟨(some "value"), 63, (some "BalanceOf<T>"), []⟩, ⟨(some "payee"), 42, (some "RewardDestination<T::AccountId>"), []⟩], 0, []⟩, ⟨"bond_extra", [⟨(some "max_additional"), 63, (some "BalanceOf<T>"), []⟩], 1, []⟩, ⟨"unbond", [⟨(some "value"), 63, (some "BalanceOf<T>"), []⟩], 2, []⟩, ⟨"withdraw_unbonded", [⟨(some "num_slashing_spans"), 4, (some "u32"), []⟩], 3, []⟩, ⟨"validate", [⟨(some "prefs"), 44, (some "ValidatorPrefs"), []⟩], 4, []⟩, ⟨"nominate", [⟨(some "targets"), 119, (some "Vec<AccountIdLookupOf<T>>"), []⟩], 5, []⟩, ⟨"chill", [], 6, []⟩, ⟨"set_payee", [⟨(some "payee"), 42, (some "RewardDestination<T::AccountId>"), []⟩], 7, []⟩, ⟨"set_controller", [], 8, []⟩, ⟨"set_validator_count", [⟨(some "new"), 59, (some "u32"), []⟩], 9, []⟩, ⟨"increase_validator_count", [⟨(some "additional"), 59, (some "u32"), []⟩], 10, []⟩, ⟨"scale_validator_count", [⟨(some "factor"), 120, (some "Percent"), []⟩], 11, []⟩, ⟨"force_no_eras", [], 12, []⟩, ⟨"force_new_era", [], 13, []⟩, ⟨"set_invulnerables", [⟨(some "invulnerables"), 116, (some "Vec<T::AccountId>"), []⟩], 14, []⟩, ⟨"force_unstake", [⟨(some "stash"), 0, (some "T::AccountId"), []⟩, ⟨(some "num_slashing_spans"), 4, (some "u32"), []⟩], 15, []⟩, ⟨"force_new_era_always", [], 16, []⟩, ⟨"cancel_deferred_slash", [⟨(some "era"), 4, (some "EraIndex"), []⟩, ⟨(some "slash_indices"), 121, (some "Vec<u32>"), []⟩], 17, []⟩, ⟨"payout_stakers", [⟨(some "validator_stash"), 0, (some "T::AccountId"), []⟩, ⟨(some "era"), 4, (some "EraIndex"), []⟩], 18, []⟩, ⟨"rebond", [⟨(some "value"), 63, (some "BalanceOf<T>"), []⟩], 19, []⟩, ⟨"reap_stash", [⟨(some "stash"), 0, (some "T::AccountId"), []⟩, ⟨(some "num_slashing_spans"), 4, (some "u32"), []⟩], 20, []⟩, ⟨"kick", [⟨(some "who"), 119, (some "Vec<AccountIdLookupOf<T>>"), []⟩], 21, []⟩, ⟨"set_staking_configs", [⟨(some "min_nominator_bond"), 122, (some "ConfigOp<BalanceOf<T>>"), []⟩, ⟨(some "min_validator_bond"), 122, (some "ConfigOp<BalanceOf<T>>"), []⟩, ⟨(some "max_nominator_count"), 123, (some "ConfigOp<u32>"), []⟩, ⟨(some "max_validator_count"), 123, (some "ConfigOp<u32>"), []⟩, ⟨(some "chill_threshold"), 124, (some "ConfigOp<Percent>"), []⟩, ⟨(some "min_commission"), 125, (some "ConfigOp<Perbill>"), []⟩, ⟨(some "max_staked_rewards"), 124, (some "ConfigOp<Percent>"), []⟩], 22, []⟩, ⟨"chill_other", [⟨(some "stash"), 0, (some "T::AccountId"), []⟩], 23, []⟩, ⟨"force_apply_min_commission", [⟨(some "validator_stash"), 0, (some "T::AccountId"), []⟩], 24, []⟩, ⟨"set_min_commission", [⟨(some "new"), 43, (some "Perbill"), []⟩], 25, []⟩, ⟨"payout_stakers_by_page", [⟨(some "validator_stash"), 0, (some "T::AccountId"), []⟩, ⟨(some "era"), 4, (some "EraIndex"), []⟩, ⟨(some "page"), 4, (some "Page"), []⟩], 26, []⟩, ⟨"update_payee", [⟨(some "controller"), 0, (some "T::AccountId"), []⟩], 27, []⟩, ⟨"deprecate_controller_batch", [⟨(some "controllers"), 126, (some "BoundedVec<T::AccountId, T::MaxControllersInDeprecationBatch>"), []⟩], 28, []⟩, ⟨"restore_ledger", [⟨(some "stash"), 0, (some "T::AccountId"), []⟩, ⟨(some "maybe_controller"), 127, (some "Option<T::AccountId>"), []⟩, ⟨(some "maybe_total"), 128, (some "Option<BalanceOf<T>>"), []⟩, ⟨(some "maybe_unlocking"), 129, (some "Option<BoundedVec<UnlockChunk<BalanceOf<T>>, T::\nMaxUnlockingChunks>>"), []⟩], 29, []⟩], []⟩,
   ⟨[], [], .sequence 113, []⟩,
   ⟨["sp_arithmetic", "per_things", "Percent"], [], .composite [⟨none, 2, (some "u8"), []⟩], []⟩,
   ⟨[], [], .sequence 4, []⟩,
   ⟨["pallet_staking", "pallet", "pallet", "ConfigOp"], [("T", (some 6))], .variant [⟨"Noop", [], 0, []⟩, ⟨"Set", [⟨none, 6, (some "T"), []⟩], 1, []⟩, ⟨"Remove", [], 2, []⟩], []⟩,
   ⟨["pallet_staking", "pallet", "pallet", "ConfigOp"], [("T", (some 4))], .variant [⟨"Noop", [], 0, []⟩, ⟨"Set", [⟨none, 4, (some "T"), []⟩], 1, []⟩, ⟨"Remove", [], 2, []⟩], []⟩,
   ⟨["pallet_staking", "pallet", "pallet", "ConfigOp"], [("T", (some 120))], .variant [⟨"Noop", [], 0, []⟩, ⟨"Set", [⟨none, 120, (some "T"), []⟩], 1, []⟩, ⟨"Remove", [], 2, []⟩], []⟩,
   ⟨["pallet_staking", "pallet", "pallet", "ConfigOp"], [("T", (some 43))], .variant [⟨"Noop", [], 0, []⟩, ⟨"Set", [⟨none, 43, (some "T"), []⟩], 1, []⟩, ⟨"Remove", [], 2, []⟩], []⟩,
   ⟨["bounded_collections", "bounded_vec", "BoundedVec"], [("T", (some 0)), ("S", none)], .composite [⟨none, 116, (some "Vec<T>"), []⟩], []⟩,
   ⟨["Option"], [("T", (some 0))], .variant [⟨"None", [], 0, []⟩, ⟨"Some", [⟨none, 0, none, []⟩], 1, []⟩], []⟩]

/-- Types 128 to 159 of `for_tests/polkadot1003003_v15`. -/
def types4 : List Typ :=
  [⟨["Option"], [("T", (some 6))], .variant [⟨"None", [], 0, []⟩, ⟨"Some", [⟨none, 6, none, []⟩], 1, []⟩], []⟩,
   ⟨["Option"], [("T", (some 130))], .variant [⟨"None", [], 0, []⟩, ⟨"Some", [⟨none, 130, none, []⟩], 1, []⟩], []⟩,
   ⟨["bounded_collections", "bounded_vec", "BoundedVec"], [("T", (some 131)), ("S", none)], .composite [⟨none, 132, (some "Vec<T>"), []⟩], []⟩,
   ⟨["pallet_staking", "UnlockChunk"], [("Balance", (some 6))], .composite [⟨(some "value"), 63, (some "Balance"), []⟩, ⟨(some "era"), 59, (some "EraIndex"), []⟩], []⟩,
   ⟨[], [], .sequence 131, []⟩,
   ⟨["pallet_session", "pallet", "Call"], [("T", none)], .variant [⟨"set_keys", [⟨(some "keys"), 134, (some "T::Keys"), []⟩, ⟨(some "proof"), 14, (some "Vec<u8>"), []⟩], 0, []⟩, ⟨"purge_keys", [], 1, []⟩], []⟩,
   ⟨["polkadot_runtime", "SessionKeys"], [], .composite [⟨(some "grandpa"), 53, (some "<Grandpa as $crate::BoundToRuntimeAppPublic>::Public"), []⟩, ⟨(some "babe"), 105, (some "<Babe as $crate::BoundToRuntimeAppPublic>::Public"), []⟩, ⟨(some "para_validator"), 135, (some "<Initializer as $crate::BoundToRuntimeAppPublic>::Public"), []⟩, ⟨(some "para_assignment"), 136, (some "<ParaSessionInfo as $crate::BoundToRuntimeAppPublic>::Public"), []⟩, ⟨(some "authority_discovery"), 137, (some "<AuthorityDiscovery as $crate::BoundToRuntimeAppPublic>::Public"), []⟩, ⟨(some "beefy"), 138, (some "<Beefy as $crate::BoundToRuntimeAppPublic>::Public"), []⟩], []⟩,
   ⟨["polkadot_primitives", "v7", "validator_app", "Public"], [], .composite [⟨none, 1, (some "sr25519::Public"), []⟩], []⟩,
   ⟨["polkadot_primitives", "v7", "assignment_app", "Public"], [], .composite [⟨none, 1, (some "sr25519::Public"), []⟩], []⟩,
   ⟨["sp_authority_discovery", "app", "Public"], [], .composite [⟨none, 1, (some "sr25519::Public"), []⟩], []⟩,
   ⟨["sp_consensus_beefy", "ecdsa_crypto", "Public"], [], .composite [⟨none, 139, (some "ecdsa::Public"), []⟩], []⟩,
   ⟨[], [], .array 33 2, []⟩,
   ⟨["pallet_grandpa", "pallet", "Call"], [("T", none)], .variant [⟨"report_equivocation", [⟨(some "equivocation_proof"), 141, (some "Box<EquivocationProof<T::Hash, BlockNumberFor<T>>>"), []⟩, ⟨(some "key_owner_proof"), 107, (some "T::KeyOwnerProof"), []⟩], 0, []⟩, ⟨"report_equivocation_unsigned", [⟨(some "equivocation_proof"), 141, (some "Box<EquivocationProof<T::Hash, BlockNumberFor<T>>>"), []⟩, ⟨(some "key_owner_proof"), 107, (some "T::KeyOwnerProof"), []⟩], 1, []⟩, ⟨"note_stalled", [⟨(some "delay"), 4, (some "BlockNumberFor<T>"), []⟩, ⟨(some "best_finalized_block_number"), 4, (some "BlockNumberFor<T>"), []⟩], 2, []⟩], []⟩,
   ⟨["sp_consensus_grandpa", "EquivocationProof"], [("H", (some 13)), ("N", (some 4))], .composite [⟨(some "set_id"), 12, (some "SetId"), []⟩, ⟨(some "equivocation"), 142, (some "Equivocation<H, N>"), []⟩], []⟩,
   ⟨["sp_consensus_grandpa", "Equivocation"], [("H", (some 13)), ("N", (some 4))], .variant [⟨"Prevote", [⟨none, 143, (some "finality_grandpa::Equivocation<AuthorityId, finality_grandpa::Prevote<\nH, N>, AuthoritySignature,>"), []⟩], 0, []⟩, ⟨"Precommit", [⟨none, 148, (some "finality_grandpa::Equivocation<AuthorityId, finality_grandpa::Precommit\n<H, N>, AuthoritySignature,>"), []⟩], 1, []⟩], []⟩,
   ⟨["finality_grandpa", "Equivocation"], [("Id", (some 53)), ("V", (some 144)), ("S", (some 145))], .composite [⟨(some "round_number"), 12, (some "u64"), []⟩, ⟨(some "identity"), 53, (some "Id"), []⟩, ⟨(some "first"), 147, (some "(V, S)"), []⟩, ⟨(some "second"), 147, (some "(V, S)"), []⟩], []⟩,
   ⟨["finality_grandpa", "Prevote"], [("H", (some 13)), ("N", (some 4))], .composite [⟨(some "target_hash"), 13, (some "H"), []⟩, ⟨(some "target_number"), 4, (some "N"), []⟩], []⟩,
   ⟨["sp_consensus_grandpa", "app", "Signature"], [], .composite [⟨none, 146, (some "ed25519::Signature"), []⟩], []⟩,
   ⟨[], [], .array 64 2, []⟩,
   ⟨[], [], .tuple [144, 145], []⟩,
   ⟨["finality_grandpa", "Equivocation"], [("Id", (some 53)), ("V", (some 149)), ("S", (some 145))], .composite [⟨(some "round_number"), 12, (some "u64"), []⟩, ⟨(some "identity"), 53, (some "Id"), []⟩, ⟨(some "first"), 150, (some "(V, S)"), []⟩, ⟨(some "second"), 150, (some "(V, S)"), []⟩], []⟩,
   ⟨["finality_grandpa", "Precommit"], [("H", (some 13)), ("N", (some 4))], .composite [⟨(some "target_hash"), 13, (some "H"), []⟩, ⟨(some "target_number"), 4, (some "N"), []⟩], []⟩,
   ⟨[], [], .tuple [149, 145], []⟩,
   ⟨["pallet_treasury", "pallet", "Call"], [("T", none), ("I", none)], .variant [⟨"spend_local", [⟨(some "amount"), 63, (some "BalanceOf<T, I>"), []⟩, ⟨(some "beneficiary"), 113, (some "AccountIdLookupOf<T>"), []⟩], 3, []⟩, ⟨"remove_approval", [⟨(some "proposal_id"), 59, (some "ProposalIndex"), []⟩], 4, []⟩, ⟨"spend", [⟨(some "asset_kind"), 55, (some "Box<T::AssetKind>"), []⟩, ⟨(some "amount"), 63, (some "AssetBalanceOf<T, I>"), []⟩, ⟨(some "beneficiary"), 81, (some "Box<BeneficiaryLookupOf<T, I>>"), []⟩, ⟨(some "valid_from"), 152, (some "Option<BlockNumberFor<T>>"), []⟩], 5, []⟩, ⟨"payout", [⟨(some "index"), 4, (some "SpendIndex"), []⟩], 6, []⟩, ⟨"check_status", [⟨(some "index"), 4, (some "SpendIndex"), []⟩], 7, []⟩, ⟨"void_spend", [⟨(some "index"), 4, (some "SpendIndex"), []⟩], 8, []⟩], []⟩,
   ⟨["Option"], [("T", (some 4))], .variant [⟨"None", [], 0, []⟩, ⟨"Some", [⟨none, 4, none, []⟩], 1, []⟩], []⟩,
   ⟨["pallet_conviction_voting", "pallet", "Call"], [("T", none), ("I", none)], .variant [⟨"vote", [⟨(some "poll_index"), 59, (some "PollIndexOf<T, I>"), []⟩, ⟨(some "vote"), 154, (some "AccountVote<BalanceOf<T, I>>"), []⟩], 0, []⟩, ⟨"delegate", [⟨(some "class"), 91, (some "ClassOf<T, I>"), []⟩, ⟨(some "to"), 113, (some "AccountIdLookupOf<T>"), []⟩, ⟨(some "conviction"), 156, (some "Conviction"), []⟩, ⟨(some "balance"), 6, (some "BalanceOf<T, I>"), []⟩], 1, []⟩, ⟨"undelegate", [⟨(some "class"), 91, (some "ClassOf<T, I>"), []⟩], 2, []⟩, ⟨"unlock", [⟨(some "class"), 91, (some "ClassOf<T, I>"), []⟩, ⟨(some "target"), 113, (some "AccountIdLookupOf<T>"), []⟩], 3, []⟩, ⟨"remove_vote", [⟨(some "class"), 157, (some "Option<ClassOf<T, I>>"), []⟩, ⟨(some "index"), 4, (some "PollIndexOf<T, I>"), []⟩], 4, []⟩, ⟨"remove_other_vote", [⟨(some "target"), 113, (some "AccountIdLookupOf<T>"), []⟩, ⟨(some "class"), 91, (some "ClassOf<T, I>"), []⟩, ⟨(some "index"), 4, (some "PollIndexOf<T, I>"), []⟩], 5, []⟩], []⟩,
   ⟨["pallet_conviction_voting", "vote", "AccountVote"], [("Balance", (some 6))], .variant [⟨"Standard", [⟨(some "vote"), 155, (some "Vote"), []⟩, ⟨(some "balance"), 6, (some "Balance"), []⟩], 0, []⟩, ⟨"Split", [⟨(some "aye"), 6, (some "Balance"), []⟩, ⟨(some "nay"), 6, (some "Balance"), []⟩], 1, []⟩, ⟨"SplitAbstain", [⟨(some "aye"), 6, (some "Balance"), []⟩, ⟨(some "nay"), 6, (some "Balance"), []⟩, ⟨(some "abstain"), 6, (some "Balance"), []⟩], 2, []⟩], []⟩,
   ⟨["pallet_conviction_voting", "vote", "Vote"], [], .composite [⟨none, 2, none, []⟩], []⟩,
   ⟨["pallet_conviction_voting", "conviction", "Conviction"], [], .variant [⟨"None", [], 0, []⟩, ⟨"Locked1x", [], 1, []⟩, ⟨"Locked2x", [], 2, []⟩, ⟨"Locked3x", [], 3, []⟩, ⟨"Locked4x", [], 4, []⟩, ⟨"Locked5x", [], 5, []⟩, ⟨"Locked6x", [], 6, []⟩], []⟩,
   ⟨["Option"], [("T", (some 91))], .variant [⟨"None", [], 0, []⟩, ⟨"Some", [⟨none, 91, none, []⟩], 1, []⟩], []⟩,
   ⟨["pallet_referenda", "pallet", "Call"], [("T", none), ("I", none)], .variant [⟨"submit", [⟨(some "proposal_origin"), 159, (some "Box<PalletsOriginOf<T>>"), []⟩, ⟨(some "proposal"), 92, (some "BoundedCallOf<T, I>"), []⟩, ⟨(some "enactment_moment"), 166, (some "DispatchTime<BlockNumberFor<T>>"), []⟩], 0, []⟩, ⟨"place_decision_deposit", [⟨(some "index"), 4, (some "ReferendumIndex"), []⟩], 1, []⟩, ⟨"refund_decision_deposit", [⟨(some "index"), 4, (some "ReferendumIndex"), []⟩], 2, []⟩, ⟨"cancel", [⟨(some "index"), 4, (some "ReferendumIndex"), []⟩], 3, []⟩, ⟨"kill", [⟨(some "index"), 4, (some "ReferendumIndex"), []⟩], 4, []⟩, ⟨"nudge_referendum", [⟨(some "index"), 4, (some "ReferendumIndex"), []⟩], 5, []⟩, ⟨"one_fewer_deciding", [⟨(some "track"), 91, (some "TrackIdOf<T, I>"), []⟩], 6, []⟩, ⟨"refund_submission_deposit", [⟨(some "index"), 4, (some "ReferendumIndex"), []⟩], 7, []⟩, ⟨"set_metadata", [⟨(some "index"), 4, (some "ReferendumIndex"), []⟩, ⟨(some "maybe_hash"), 167, (some "Option<T::Hash>"), []⟩], 8, []⟩], []⟩,
   ⟨["polkadot_runtime", "OriginCaller"], [], .variant [⟨"system", [⟨none, 160, (some "frame_system::Origin<Runtime>"), []⟩], 0, []⟩, ⟨"Origins", [⟨none, 161, (some "pallet_custom_origins::Origin"), []⟩], 22, []⟩, ⟨"ParachainsOrigin", [⟨none, 162, (some "parachains_origin::Origin"), []⟩], 50, []⟩, ⟨"XcmPallet", [⟨none, 164, (some "pallet_xcm::Origin"), []⟩], 99, []⟩, ⟨"Void", [⟨none, 165, (some "self::sp_api_hidden_includes_construct_runtime::hidden_include::\n__private::Void"), []⟩], 4, []⟩], []⟩]

/-- Types 160 to 191 of `for_tests/polkadot1003003_v15`. -/
def types5 : List Typ :=
  [⟨["frame_support", "dispatch", "RawOrigin"], [("AccountId", (some 0))], .variant [⟨"Root", [], 0, []⟩, ⟨"Signed", [⟨none, 0, (some "AccountId"), []⟩], 1, []⟩, ⟨"None", [], 2, []⟩], []⟩,
   ⟨["polkadot_runtime", "governance", "origins", "pallet_custom_origins", "Origin"], [], .variant [⟨"StakingAdmin", [], 0, []⟩, ⟨"Treasurer", [], 1, []⟩, ⟨"FellowshipAdmin", [], 2, []⟩, ⟨"GeneralAdmin", [], 3, []⟩, ⟨"AuctionAdmin", [], 4, []⟩, ⟨"LeaseAdmin", [], 5, []⟩, ⟨"ReferendumCanceller", [], 6, []⟩, ⟨"ReferendumKiller", [], 7, []⟩, ⟨"SmallTipper", [], 8, []⟩, ⟨"BigTipper", [], 9, []⟩, ⟨"SmallSpender", [], 10, []⟩, ⟨"MediumSpender", [], 11, []⟩, ⟨"BigSpender", [], 12, []⟩, ⟨"WhitelistedCaller", [], 13, []⟩, ⟨"WishForChange", [], 14, []⟩], []⟩,
   ⟨["polkadot_runtime_parachains", "origin", "pallet", "Origin"], [], .variant [⟨"Parachain", [⟨none, 163, (some "ParaId"), []⟩], 0, []⟩], []⟩,
   ⟨["polkadot_parachain_primitives", "primitives", "Id"], [], .composite [⟨none, 4, (some "u32"), []⟩], []⟩,
   ⟨["pallet_xcm", "pallet", "Origin"], [], .variant [⟨"Xcm", [⟨none, 67, (some "Location"), []⟩], 0, []⟩, ⟨"Response", [⟨none, 67, (some "Location"), []⟩], 1, []⟩], []⟩,
   ⟨["sp_core", "Void"], [], .variant [], []⟩,
   ⟨["frame_support", "traits", "schedule", "DispatchTime"], [("BlockNumber", (some 4))], .variant [⟨"At", [⟨none, 4, (some "BlockNumber"), []⟩], 0, []⟩, ⟨"After", [⟨none, 4, (some "BlockNumber"), []⟩], 1, []⟩], []⟩,
   ⟨["Option"], [("T", (some 13))], .variant [⟨"None", [], 0, []⟩, ⟨"Some", [⟨none, 13, none, []⟩], 1, []⟩], []⟩,
   ⟨["pallet_whitelist", "pallet", "Call"], [("T", none)], .variant [⟨"whitelist_call", [⟨(some "call_hash"), 13, (some "T::Hash"), []⟩], 0, []⟩, ⟨"remove_whitelisted_call", [⟨(some "call_hash"), 13, (some "T::Hash"), []⟩], 1, []⟩, ⟨"dispatch_whitelisted_call", [⟨(some "call_hash"), 13, (some "T::Hash"), []⟩, ⟨(some "call_encoded_len"), 4, (some "u32"), []⟩, ⟨(some "call_weight_witness"), 10, (some "Weight"), []⟩], 2, []⟩, ⟨"dispatch_whitelisted_call_with_preimage", [⟨(some "call"), 93, (some "Box<<T as Config>::RuntimeCall>"), []⟩], 3, []⟩], []⟩,
   ⟨["pallet_parameters", "pallet", "Call"], [("T", none)], .variant [⟨"set_parameter", [⟨(some "key_value"), 170, (some "T::RuntimeParameters"), []⟩], 0, []⟩], []⟩,
   ⟨["polkadot_runtime", "RuntimeParameters"], [], .variant [⟨"Inflation", [⟨none, 171, (some "dynamic_params::inflation::Parameters"), []⟩], 0, []⟩], []⟩,
   ⟨["polkadot_runtime", "dynamic_params", "inflation", "Parameters"], [], .variant [⟨"MinInflation", [⟨none, 172, (some "MinInflation"), []⟩, ⟨none, 173, (some "Option<Perquintill>"), []⟩], 0, []⟩, ⟨"MaxInflation", [⟨none, 175, (some "MaxInflation"), []⟩, ⟨none, 173, (some "Option<Perquintill>"), []⟩], 1, []⟩, ⟨"IdealStake", [⟨none, 176, (some "IdealStake"), []⟩, ⟨none, 173, (some "Option<Perquintill>"), []⟩], 2, []⟩, ⟨"Falloff", [⟨none, 177, (some "Falloff"), []⟩, ⟨none, 173, (some "Option<Perquintill>"), []⟩], 3, []⟩, ⟨"UseAuctionSlots", [⟨none, 178, (some "UseAuctionSlots"), []⟩, ⟨none, 179, (some "Option<bool>"), []⟩], 4, []⟩], []⟩,
   ⟨["polkadot_runtime", "dynamic_params", "inflation", "MinInflation"], [], .composite [], []⟩,
   ⟨["Option"], [("T", (some 174))], .variant [⟨"None", [], 0, []⟩, ⟨"Some", [⟨none, 174, none, []⟩], 1, []⟩], []⟩,
   ⟨["sp_arithmetic", "per_things", "Perquintill"], [], .composite [⟨none, 12, (some "u64"), []⟩], []⟩,
   ⟨["polkadot_runtime", "dynamic_params", "inflation", "MaxInflation"], [], .composite [], []⟩,
   ⟨["polkadot_runtime", "dynamic_params", "inflation", "IdealStake"], [], .composite [], []⟩,
   ⟨["polkadot_runtime", "dynamic_params", "inflation", "Falloff"], [], .composite [], []⟩,
   ⟨["polkadot_runtime", "dynamic_params", "inflation", "UseAuctionSlots"], [], .composite [], []⟩,
   ⟨["Option"], [("T", (some 8))], .variant [⟨"None", [], 0, []⟩, ⟨"Some", [⟨none, 8, none, []⟩], 1, []⟩], []⟩,
   ⟨["polkadot_runtime_common", "claims", "pallet", "Call"], [("T", none)], .variant [⟨"claim", [⟨(some "dest"), 0, (some "T::AccountId"), []⟩, ⟨(some "ethereum_signature"), 181, (some "EcdsaSignature"), []⟩], 0, []⟩, ⟨"mint_claim", [⟨(some "who"), 183, (some "EthereumAddress"), []⟩, ⟨(some "value"), 6, (some "BalanceOf<T>"), []⟩, ⟨(some "vesting_schedule"), 184, (some "Option<(BalanceOf<T>, BalanceOf<T>, BlockNumberFor<T>)>"), []⟩, ⟨(some "statement"), 186, (some "Option<StatementKind>"), []⟩], 1, []⟩, ⟨"claim_attest", [⟨(some "dest"), 0, (some "T::AccountId"), []⟩, ⟨(some "ethereum_signature"), 181, (some "EcdsaSignature"), []⟩, ⟨(some "statement"), 14, (some "Vec<u8>"), []⟩], 2, []⟩, ⟨"attest", [⟨(some "statement"), 14, (some "Vec<u8>"), []⟩], 3, []⟩, ⟨"move_claim", [⟨(some "old"), 183, (some "EthereumAddress"), []⟩, ⟨(some "new"), 183, (some "EthereumAddress"), []⟩, ⟨(some "maybe_preclaim"), 127, (some "Option<T::AccountId>"), []⟩], 4, []⟩], []⟩,
   ⟨["polkadot_runtime_common", "claims", "EcdsaSignature"], [], .composite [⟨none, 182, (some "[u8; 65]"), []⟩], []⟩,
   ⟨[], [], .array 65 2, []⟩,
   ⟨["polkadot_runtime_common", "claims", "EthereumAddress"], [], .composite [⟨none, 62, (some "[u8; 20]"), []⟩], []⟩,
   ⟨["Option"], [("T", (some 185))], .variant [⟨"None", [], 0, []⟩, ⟨"Some", [⟨none, 185, none, []⟩], 1, []⟩], []⟩,
   ⟨[], [], .tuple [6, 6, 4], []⟩,
   ⟨["Option"], [("T", (some 187))], .variant [⟨"None", [], 0, []⟩, ⟨"Some", [⟨none, 187, none, []⟩], 1, []⟩], []⟩,
   ⟨["polkadot_runtime_common", "claims", "StatementKind"], [], .variant [⟨"Regular", [], 0, []⟩, ⟨"Saft", [], 1, []⟩], []⟩,
   ⟨["pallet_vesting", "pallet", "Call"], [("T", none)], .variant [⟨"vest", [], 0, []⟩, ⟨"vest_other", [⟨(some "target"), 113, (some "AccountIdLookupOf<T>"), []⟩], 1, []⟩, ⟨"vested_transfer", [⟨(some "target"), 113, (some "AccountIdLookupOf<T>"), []⟩, ⟨(some "schedule"), 189, (some "VestingInfo<BalanceOf<T>, BlockNumberFor<T>>"), []⟩], 2, []⟩, ⟨"force_vested_transfer", [⟨(some "source"), 113, (some "AccountIdLookupOf<T>"), []⟩, ⟨(some "target"), 113, (some "AccountIdLookupOf<T>"), []⟩, ⟨(some "schedule"), 189, (some "VestingInfo<BalanceOf<T>, BlockNumberFor<T>>"), []⟩], 3, []⟩, ⟨"merge_schedules", [⟨(some "schedule1_index"), 4, (some "u32"), []⟩, ⟨(some "schedule2_index"), 4, (some "u32"), []⟩], 4, []⟩, ⟨"force_remove_vesting_schedule", [⟨(some "target"), 113, (some "<T::Lookup as StaticLookup>::Source"), []⟩, ⟨(some "schedule_index"), 4, (some "u32"), []⟩], 5, []⟩], []⟩,
   ⟨["pallet_vesting", "vesting_info", "VestingInfo"], [("Balance", (some 6)), ("BlockNumber", (some 4))], .composite [⟨(some "locked"), 6, (some "Balance"), []⟩, ⟨(some "per_block"), 6, (some "Balance"), []⟩, ⟨(some "starting_block"), 4, (some "BlockNumber"), []⟩], []⟩,
   ⟨["pallet_utility", "pallet", "Call"], [("T", none)], .variant [⟨"batch", [⟨(some "calls"), 191, (some "Vec<<T as Config>::RuntimeCall>"), []⟩], 0, []⟩, ⟨"as_derivative", [⟨(some "index"), 91, (some "u16"), []⟩, ⟨(some "call"), 93, (some "Box<<T as Config>::RuntimeCall>"), []⟩], 1, []⟩, ⟨"batch_all", [⟨(some "calls"), 191, (some "Vec<<T as Config>::RuntimeCall>"), []⟩], 2, []⟩, ⟨"dispatch_as", [⟨(some "as_origin"), 159, (some "Box<T::PalletsOrigin>"), []⟩, ⟨(some "call"), 93, (some "Box<<T as Config>::RuntimeCall>"), []⟩], 3, []⟩, ⟨"force_batch", [⟨(some "calls"), 191, (some "Vec<<T as Config>::RuntimeCall>"), []⟩], 4, []⟩, ⟨"with_weight", [⟨(some "call"), 93, (some "Box<<T as Config>::RuntimeCall>"), []⟩, ⟨(some "weight"), 10, (some "Weight"), []⟩], 5, []⟩], []⟩,
   ⟨[], [], .sequence 93, []⟩]

/-- Types 192 to 223 of `for_tests/polkadot1003003_v15`. -/
def types6 : List Typ :=
  [⟨["pallet_proxy", "pallet", "Call"], [("T", none)], .variant [⟨"proxy", [⟨(some "real"), 113, (some "AccountIdLookupOf<T>"), []⟩, ⟨(some "force_proxy_type"), 193, (some "Option<T::ProxyType>"), []⟩, ⟨(some "call"), 93, (some "Box<<T as Config>::RuntimeCall>"), []⟩], 0, []⟩, ⟨"add_proxy", [⟨(some "delegate"), 113, (some "AccountIdLookupOf<T>"), []⟩, ⟨(some "proxy_type"), 194, (some "T::ProxyType"), []⟩, ⟨(some "delay"), 4, (some "BlockNumberFor<T>"), []⟩], 1, []⟩, ⟨"remove_proxy", [⟨(some "delegate"), 113, (some "AccountIdLookupOf<T>"), []⟩, ⟨(some "proxy_type"), 194, (some "T::ProxyType"), []⟩, ⟨(some "delay"), 4, (some "BlockNumberFor<T>"), []⟩], 2, []⟩, ⟨"remove_proxies", [], 3, []⟩, ⟨"create_pure", [⟨(some "proxy_type"), 194, (some "T::ProxyType"), []⟩, ⟨(some "delay"), 4, (some "BlockNumberFor<T>"), []⟩, ⟨(some "index"), 91, (some "u16"), []⟩], 4, []⟩, ⟨"kill_pure", [⟨(some "spawner"), 113, (some "AccountIdLookupOf<T>"), []⟩, ⟨(some "proxy_type"), 194, (some "T::ProxyType"), []⟩, ⟨(some "index"), 91, (some "u16"), []⟩, ⟨(some "height"), 59, (some "BlockNumberFor<T>"), []⟩, ⟨(some "ext_index"), 59, (some "u32"), []⟩], 5, []⟩, ⟨"announce", [⟨(some "real"), 113, (some "AccountIdLookupOf<T>"), []⟩, ⟨(some "call_hash"), 13, (some "CallHashOf<T>"), []⟩], 6, []⟩, ⟨"remove_announcement", [⟨(some "real"), 113, (some "AccountIdLookupOf<T>"), []⟩, ⟨(some "call_hash"), 13, (some "CallHashOf<T>"), []⟩], 7, []⟩, ⟨"reject_announcement", [⟨(some "delegate"), 113, (some "AccountIdLookupOf<T>"), []⟩, ⟨(some "call_hash"), 13, (some "CallHashOf<T>"), []⟩], 8, []⟩, ⟨"proxy_announced", [⟨(some "delegate"), 113, (some "AccountIdLookupOf<T>"), []⟩, ⟨(some "real"), 113, (some "AccountIdLookupOf<T>"), []⟩, ⟨(some "force_proxy_type"), 193, (some "Option<T::ProxyType>"), []⟩, ⟨(some "call"), 93, (some "Box<<T as Config>::RuntimeCall>"), []⟩], 9, []⟩], []⟩,
   ⟨["Option"], [("T", (some 194))], .variant [⟨"None", [], 0, []⟩, ⟨"Some", [⟨none, 194, none, []⟩], 1, []⟩], []⟩,
   ⟨["polkadot_runtime", "ProxyType"], [], .variant [⟨"Any", [], 0, []⟩, ⟨"NonTransfer", [], 1, []⟩, ⟨"Governance", [], 2, []⟩, ⟨"Staking", [], 3, []⟩, ⟨"CancelProxy", [], 6, []⟩, ⟨"Auction", [], 7, []⟩, ⟨"NominationPools", [], 8, []⟩], []⟩,
   ⟨["pallet_multisig", "pallet", "Call"], [("T", none)], .variant [⟨"as_multi_threshold_1", [⟨(some "other_signatories"), 116, (some "Vec<T::AccountId>"), []⟩, ⟨(some "call"), 93, (some "Box<<T as Config>::RuntimeCall>"), []⟩], 0, []⟩, ⟨"as_multi", [⟨(some "threshold"), 91, (some "u16"), []⟩, ⟨(some "other_signatories"), 116, (some "Vec<T::AccountId>"), []⟩, ⟨(some "maybe_timepoint"), 196, (some "Option<Timepoint<BlockNumberFor<T>>>"), []⟩, ⟨(some "call"), 93, (some "Box<<T as Config>::RuntimeCall>"), []⟩, ⟨(some "max_weight"), 10, (some "Weight"), []⟩], 1, []⟩, ⟨"approve_as_multi", [⟨(some "threshold"), 91, (some "u16"), []⟩, ⟨(some "other_signatories"), 116, (some "Vec<T::AccountId>"), []⟩, ⟨(some "maybe_timepoint"), 196, (some "Option<Timepoint<BlockNumberFor<T>>>"), []⟩, ⟨(some "call_hash"), 1, (some "[u8; 32]"), []⟩, ⟨(some "max_weight"), 10, (some "Weight"), []⟩], 2, []⟩, ⟨"cancel_as_multi", [⟨(some "threshold"), 91, (some "u16"), []⟩, ⟨(some "other_signatories"), 116, (some "Vec<T::AccountId>"), []⟩, ⟨(some "timepoint"), 197, (some "Timepoint<BlockNumberFor<T>>"), []⟩, ⟨(some "call_hash"), 1, (some "[u8; 32]"), []⟩], 3, []⟩], []⟩,
   ⟨["Option"], [("T", (some 197))], .variant [⟨"None", [], 0, []⟩, ⟨"Some", [⟨none, 197, none, []⟩], 1, []⟩], []⟩,
   ⟨["pallet_multisig", "Timepoint"], [("BlockNumber", (some 4))], .composite [⟨(some "height"), 4, (some "BlockNumber"), []⟩, ⟨(some "index"), 4, (some "u32"), []⟩], []⟩,
   ⟨["pallet_bounties", "pallet", "Call"], [("T", none), ("I", none)], .variant [⟨"propose_bounty", [⟨(some "value"), 63, (some "BalanceOf<T, I>"), []⟩, ⟨(some "description"), 14, (some "Vec<u8>"), []⟩], 0, []⟩, ⟨"approve_bounty", [⟨(some "bounty_id"), 59, (some "BountyIndex"), []⟩], 1, []⟩, ⟨"propose_curator", [⟨(some "bounty_id"), 59, (some "BountyIndex"), []⟩, ⟨(some "curator"), 113, (some "AccountIdLookupOf<T>"), []⟩, ⟨(some "fee"), 63, (some "BalanceOf<T, I>"), []⟩], 2, []⟩, ⟨"unassign_curator", [⟨(some "bounty_id"), 59, (some "BountyIndex"), []⟩], 3, []⟩, ⟨"accept_curator", [⟨(some "bounty_id"), 59, (some "BountyIndex"), []⟩], 4, []⟩, ⟨"award_bounty", [⟨(some "bounty_id"), 59, (some "BountyIndex"), []⟩, ⟨(some "beneficiary"), 113, (some "AccountIdLookupOf<T>"), []⟩], 5, []⟩, ⟨"claim_bounty", [⟨(some "bounty_id"), 59, (some "BountyIndex"), []⟩], 6, []⟩, ⟨"close_bounty", [⟨(some "bounty_id"), 59, (some "BountyIndex"), []⟩], 7, []⟩, ⟨"extend_bounty_expiry", [⟨(some "bounty_id"), 59, (some "BountyIndex"), []⟩, ⟨(some "remark"), 14, (some "Vec<u8>"), []⟩], 8, []⟩], []⟩,
   ⟨["pallet_child_bounties", "pallet", "Call"], [("T", none)], .variant [⟨"add_child_bounty", [⟨(some "parent_bounty_id"), 59, (some "BountyIndex"), []⟩, ⟨(some "value"), 63, (some "BalanceOf<T>"), []⟩, ⟨(some "description"), 14, (some "Vec<u8>"), []⟩], 0, []⟩, ⟨"propose_curator", [⟨(some "parent_bounty_id"), 59, (some "BountyIndex"), []⟩, ⟨(some "child_bounty_id"), 59, (some "BountyIndex"), []⟩, ⟨(some "curator"), 113, (some "AccountIdLookupOf<T>"), []⟩, ⟨(some "fee"), 63, (some "BalanceOf<T>"), []⟩], 1, []⟩, ⟨"accept_curator", [⟨(some "parent_bounty_id"), 59, (some "BountyIndex"), []⟩, ⟨(some "child_bounty_id"), 59, (some "BountyIndex"), []⟩], 2, []⟩, ⟨"unassign_curator", [⟨(some "parent_bounty_id"), 59, (some "BountyIndex"), []⟩, ⟨(some "child_bounty_id"), 59, (some "BountyIndex"), []⟩], 3, []⟩, ⟨"award_child_bounty", [⟨(some "parent_bounty_id"), 59, (some "BountyIndex"), []⟩, ⟨(some "child_bounty_id"), 59, (some "BountyIndex"), []⟩, ⟨(some "beneficiary"), 113, (some "AccountIdLookupOf<T>"), []⟩], 4, []⟩, ⟨"claim_child_bounty", [⟨(some "parent_bounty_id"), 59, (some "BountyIndex"), []⟩, ⟨(some "child_bounty_id"), 59, (some "BountyIndex"), []⟩], 5, []⟩, ⟨"close_child_bounty", [⟨(some "parent_bounty_id"), 59, (some "BountyIndex"), []⟩, ⟨(some "child_bounty_id"), 59, (some "BountyIndex"), []⟩], 6, []⟩], []⟩,
   ⟨["pallet_election_provider_multi_phase", "pallet", "Call"], [("T", none)], .variant [⟨"submit_unsigned", [⟨(some "raw_solution"), 201, (some "Box<RawSolution<SolutionOf<T::MinerConfig>>>"), []⟩, ⟨(some "witness"), 254, (some "SolutionOrSnapshotSize"), []⟩], 0, []⟩, ⟨"set_minimum_untrusted_score", [⟨(some "maybe_next_score"), 255, (some "Option<ElectionScore>"), []⟩], 1, []⟩, ⟨"set_emergency_election_result", [⟨(some "supports"), 256, (some "Supports<T::AccountId>"), []⟩], 2, []⟩, ⟨"submit", [⟨(some "raw_solution"), 201, (some "Box<RawSolution<SolutionOf<T::MinerConfig>>>"), []⟩], 3, []⟩, ⟨"governance_fallback", [⟨(some "maybe_max_voters"), 152, (some "Option<u32>"), []⟩, ⟨(some "maybe_max_targets"), 152, (some "Option<u32>"), []⟩], 4, []⟩], []⟩,
   ⟨["pallet_election_provider_multi_phase", "RawSolution"], [("S", (some 202))], .composite [⟨(some "solution"), 202, (some "S"), []⟩, ⟨(some "score"), 253, (some "ElectionScore"), []⟩, ⟨(some "round"), 4, (some "u32"), []⟩], []⟩,
   ⟨["polkadot_runtime", "NposCompactSolution16"], [], .composite [⟨(some "votes1"), 203, none, []⟩, ⟨(some "votes2"), 206, none, []⟩, ⟨(some "votes3"), 211, none, []⟩, ⟨(some "votes4"), 214, none, []⟩, ⟨(some "votes5"), 217, none, []⟩, ⟨(some "votes6"), 220, none, []⟩, ⟨(some "votes7"), 223, none, []⟩, ⟨(some "votes8"), 226, none, []⟩, ⟨(some "votes9"), 229, none, []⟩, ⟨(some "votes10"), 232, none, []⟩, ⟨(some "votes11"), 235, none, []⟩, ⟨(some "votes12"), 238, none, []⟩, ⟨(some "votes13"), 241, none, []⟩, ⟨(some "votes14"), 244, none, []⟩, ⟨(some "votes15"), 247, none, []⟩, ⟨(some "votes16"), 250, none, []⟩], []⟩,
   ⟨[], [], .sequence 204, []⟩,
   ⟨[], [], .tuple [59, 205], []⟩,
   ⟨[], [], .compact 91, []⟩,
   ⟨[], [], .sequence 207, []⟩,
   ⟨[], [], .tuple [59, 208, 205], []⟩,
   ⟨[], [], .tuple [205, 209], []⟩,
   ⟨[], [], .compact 210, []⟩,
   ⟨["sp_arithmetic", "per_things", "PerU16"], [], .composite [⟨none, 91, (some "u16"), []⟩], []⟩,
   ⟨[], [], .sequence 212, []⟩,
   ⟨[], [], .tuple [59, 213, 205], []⟩,
   ⟨[], [], .array 2 208, []⟩,
   ⟨[], [], .sequence 215, []⟩,
   ⟨[], [], .tuple [59, 216, 205], []⟩,
   ⟨[], [], .array 3 208, []⟩,
   ⟨[], [], .sequence 218, []⟩,
   ⟨[], [], .tuple [59, 219, 205], []⟩,
   ⟨[], [], .array 4 208, []⟩,
   ⟨[], [], .sequence 221, []⟩,
   ⟨[], [], .tuple [59, 222, 205], []⟩,
   ⟨[], [], .array 5 208, []⟩,
   ⟨[], [], .sequence 224, []⟩]

/-- Types 224 to 255 of `for_tests/polkadot1003003_v15`. -/
def types7 : List Typ :=
  [⟨[], [], .tuple [59, 225, 205], []⟩,
   ⟨[], [], .array 6 208, []⟩,
   ⟨[], [], .sequence 227, []⟩,
   ⟨[], [], .tuple [59, 228, 205], []⟩,
   ⟨[], [], .array 7 208, []⟩,
   ⟨[], [], .sequence 230, []⟩,
   ⟨[], [], .tuple [59, 231, 205], []⟩,
   ⟨[], [], .array 8 208, []⟩,
   ⟨[], [], .sequence 233, []⟩,
   ⟨[], [], .tuple [59, 234, 205], []⟩,
   ⟨[], [], .array 9 208, []⟩,
   ⟨[], [], .sequence 236, []⟩,
   ⟨[], [], .tuple [59, 237, 205], []⟩,
   ⟨[], [], .array 10 208, []⟩,
   ⟨[], [], .sequence 239, []⟩,
   ⟨[], [], .tuple [59, 240, 205], []⟩,
   ⟨[], [], .array 11 208, []⟩,
   ⟨[], [], .sequence 242, []⟩,
   ⟨[], [], .tuple [59, 243, 205], []⟩,
   ⟨[], [], .array 12 208, []⟩,
   ⟨[], [], .sequence 245, []⟩,
   ⟨[], [], .tuple [59, 246, 205], []⟩,
   ⟨[], [], .array 13 208, []⟩,
   ⟨[], [], .sequence 248, []⟩,
   ⟨[], [], .tuple [59, 249, 205], []⟩,
   ⟨[], [], .array 14 208, []⟩,
   ⟨[], [], .sequence 251, []⟩,
   ⟨[], [], .tuple [59, 252, 205], []⟩,
   ⟨[], [], .array 15 208, []⟩,
   ⟨["sp_npos_elections", "ElectionScore"], [], .composite [⟨(some "minimal_stake"), 6, (some "ExtendedBalance"), []⟩, ⟨(some "sum_stake"), 6, (some "ExtendedBalance"), []⟩, ⟨(some "sum_stake_squared"), 6, (some "ExtendedBalance"), []⟩], []⟩,
   ⟨["pallet_election_provider_multi_phase", "SolutionOrSnapshotSize"], [], .composite [⟨(some "voters"), 59, (some "u32"), []⟩, ⟨(some "targets"), 59, (some "u32"), []⟩], []⟩,
   ⟨["Option"], [("T", (some 253))], .variant [⟨"None", [], 0, []⟩, ⟨"Some", [⟨none, 253, none, []⟩], 1, []⟩], []⟩]

/-- Types 256 to 287 of `for_tests/polkadot1003003_v15`. -/
def types8 : List Typ :=
  [⟨[], [], .sequence 257, []⟩,
   ⟨[], [], .tuple [0, 258], []⟩,
   ⟨["sp_npos_elections", "Support"], [("AccountId", (some 0))], .composite [⟨(some "total"), 6, (some "ExtendedBalance"), []⟩, ⟨(some "voters"), 259, (some "Vec<(AccountId, ExtendedBalance)>"), []⟩], []⟩,
   ⟨[], [], .sequence 260, []⟩,
   ⟨[], [], .tuple [0, 6], []⟩,
   ⟨["pallet_bags_list", "pallet", "Call"], [("T", none), ("I", none)], .variant [⟨"rebag", [⟨(some "dislocated"), 113, (some "AccountIdLookupOf<T>"), []⟩], 0, []⟩, ⟨"put_in_front_of", [⟨(some "lighter"), 113, (some "AccountIdLookupOf<T>"), []⟩], 1, []⟩, ⟨"put_in_front_of_other", [⟨(some "heavier"), 113, (some "AccountIdLookupOf<T>"), []⟩, ⟨(some "lighter"), 113, (some "AccountIdLookupOf<T>"), []⟩], 2, []⟩], []⟩,
   ⟨["pallet_nomination_pools", "pallet", "Call"], [("T", none)], .variant [⟨"join", [⟨(some "amount"), 63, (some "BalanceOf<T>"), []⟩, ⟨(some "pool_id"), 4, (some "PoolId"), []⟩], 0, []⟩, ⟨"bond_extra", [⟨(some "extra"), 263, (some "BondExtra<BalanceOf<T>>"), []⟩], 1, []⟩, ⟨"claim_payout", [], 2, []⟩, ⟨"unbond", [⟨(some "member_account"), 113, (some "AccountIdLookupOf<T>"), []⟩, ⟨(some "unbonding_points"), 63, (some "BalanceOf<T>"), []⟩], 3, []⟩, ⟨"pool_withdraw_unbonded", [⟨(some "pool_id"), 4, (some "PoolId"), []⟩, ⟨(some "num_slashing_spans"), 4, (some "u32"), []⟩], 4, []⟩, ⟨"withdraw_unbonded", [⟨(some "member_account"), 113, (some "AccountIdLookupOf<T>"), []⟩, ⟨(some "num_slashing_spans"), 4, (some "u32"), []⟩], 5, []⟩, ⟨"create", [⟨(some "amount"), 63, (some "BalanceOf<T>"), []⟩, ⟨(some "root"), 113, (some "AccountIdLookupOf<T>"), []⟩, ⟨(some "nominator"), 113, (some "AccountIdLookupOf<T>"), []⟩, ⟨(some "bouncer"), 113, (some "AccountIdLookupOf<T>"), []⟩], 6, []⟩, ⟨"create_with_pool_id", [⟨(some "amount"), 63, (some "BalanceOf<T>"), []⟩, ⟨(some "root"), 113, (some "AccountIdLookupOf<T>"), []⟩, ⟨(some "nominator"), 113, (some "AccountIdLookupOf<T>"), []⟩, ⟨(some "bouncer"), 113, (some "AccountIdLookupOf<T>"), []⟩, ⟨(some "pool_id"), 4, (some "PoolId"), []⟩], 7, []⟩, ⟨"nominate", [⟨(some "pool_id"), 4, (some "PoolId"), []⟩, ⟨(some "validators"), 116, (some "Vec<T::AccountId>"), []⟩], 8, []⟩, ⟨"set_state", [⟨(some "pool_id"), 4, (some "PoolId"), []⟩, ⟨(some "state"), 264, (some "PoolState"), []⟩], 9, []⟩, ⟨"set_metadata", [⟨(some "pool_id"), 4, (some "PoolId"), []⟩, ⟨(some "metadata"), 14, (some "Vec<u8>"), []⟩], 10, []⟩, ⟨"set_configs", [⟨(some "min_join_bond"), 265, (some "ConfigOp<BalanceOf<T>>"), []⟩, ⟨(some "min_create_bond"), 265, (some "ConfigOp<BalanceOf<T>>"), []⟩, ⟨(some "max_pools"), 266, (some "ConfigOp<u32>"), []⟩, ⟨(some "max_members"), 266, (some "ConfigOp<u32>"), []⟩, ⟨(some "max_members_per_pool"), 266, (some "ConfigOp<u32>"), []⟩, ⟨(some "global_max_commission"), 267, (some "ConfigOp<Perbill>"), []⟩], 11, []⟩, ⟨"update_roles", [⟨(some "pool_id"), 4, (some "PoolId"), []⟩, ⟨(some "new_root"), 268, (some "ConfigOp<T::AccountId>"), []⟩, ⟨(some "new_nominator"), 268, (some "ConfigOp<T::AccountId>"), []⟩, ⟨(some "new_bouncer"), 268, (some "ConfigOp<T::AccountId>"), []⟩], 12, []⟩, ⟨"chill", [⟨(some "pool_id"), 4, (some "PoolId"), []⟩], 13, []⟩, ⟨"bond_extra_other", [⟨(some "member"), 113, (some "AccountIdLookupOf<T>"), []⟩, ⟨(some "extra"), 263, (some "BondExtra<BalanceOf<T>>"), []⟩], 14, []⟩, ⟨"set_claim_permission", [⟨(some "permission"), 269, (some "ClaimPermission"), []⟩], 15, []⟩, ⟨"claim_payout_other", [⟨(some "other"), 0, (some "T::AccountId"), []⟩], 16, []⟩, ⟨"set_commission", [⟨(some "pool_id"), 4, (some "PoolId"), []⟩, ⟨(some "new_commission"), 270, (some "Option<(Perbill, T::AccountId)>"), []⟩], 17, []⟩, ⟨"set_commission_max", [⟨(some "pool_id"), 4, (some "PoolId"), []⟩, ⟨(some "max_commission"), 43, (some "Perbill"), []⟩], 18, []⟩, ⟨"set_commission_change_rate", [⟨(some "pool_id"), 4, (some "PoolId"), []⟩, ⟨(some "change_rate"), 272, (some "CommissionChangeRate<BlockNumberFor<T>>"), []⟩], 19, []⟩, ⟨"claim_commission", [⟨(some "pool_id"), 4, (some "PoolId"), []⟩], 20, []⟩, ⟨"adjust_pool_deposit", [⟨(some "pool_id"), 4, (some "PoolId"), []⟩], 21, []⟩, ⟨"set_commission_claim_permission", [⟨(some "pool_id"), 4, (some "PoolId"), []⟩, ⟨(some "permission"), 273, (some "Option<CommissionClaimPermission<T::AccountId>>"), []⟩], 22, []⟩, ⟨"apply_slash", [⟨(some "member_account"), 113, (some "AccountIdLookupOf<T>"), []⟩], 23, []⟩, ⟨"migrate_delegation", [⟨(some "member_account"), 113, (some "AccountIdLookupOf<T>"), []⟩], 24, []⟩, ⟨"migrate_pool_to_delegate_stake", [⟨(some "pool_id"), 4, (some "PoolId"), []⟩], 25, []⟩], []⟩,
   ⟨["pallet_nomination_pools", "BondExtra"], [("Balance", (some 6))], .variant [⟨"FreeBalance", [⟨none, 6, (some "Balance"), []⟩], 0, []⟩, ⟨"Rewards", [], 1, []⟩], []⟩,
   ⟨["pallet_nomination_pools", "PoolState"], [], .variant [⟨"Open", [], 0, []⟩, ⟨"Blocked", [], 1, []⟩, ⟨"Destroying", [], 2, []⟩], []⟩,
   ⟨["pallet_nomination_pools", "ConfigOp"], [("T", (some 6))], .variant [⟨"Noop", [], 0, []⟩, ⟨"Set", [⟨none, 6, (some "T"), []⟩], 1, []⟩, ⟨"Remove", [], 2, []⟩], []⟩,
   ⟨["pallet_nomination_pools", "ConfigOp"], [("T", (some 4))], .variant [⟨"Noop", [], 0, []⟩, ⟨"Set", [⟨none, 4, (some "T"), []⟩], 1, []⟩, ⟨"Remove", [], 2, []⟩], []⟩,
   ⟨["pallet_nomination_pools", "ConfigOp"], [("T", (some 43))], .variant [⟨"Noop", [], 0, []⟩, ⟨"Set", [⟨none, 43, (some "T"), []⟩], 1, []⟩, ⟨"Remove", [], 2, []⟩], []⟩,
   ⟨["pallet_nomination_pools", "ConfigOp"], [("T", (some 0))], .variant [⟨"Noop", [], 0, []⟩, ⟨"Set", [⟨none, 0, (some "T"), []⟩], 1, []⟩, ⟨"Remove", [], 2, []⟩], []⟩,
   ⟨["pallet_nomination_pools", "ClaimPermission"], [], .variant [⟨"Permissioned", [], 0, []⟩, ⟨"PermissionlessCompound", [], 1, []⟩, ⟨"PermissionlessWithdraw", [], 2, []⟩, ⟨"PermissionlessAll", [], 3, []⟩], []⟩,
   ⟨["Option"], [("T", (some 271))], .variant [⟨"None", [], 0, []⟩, ⟨"Some", [⟨none, 271, none, []⟩], 1, []⟩], []⟩,
   ⟨[], [], .tuple [43, 0], []⟩,
   ⟨["pallet_nomination_pools", "CommissionChangeRate"], [("BlockNumber", (some 4))], .composite [⟨(some "max_increase"), 43, (some "Perbill"), []⟩, ⟨(some "min_delay"), 4, (some "BlockNumber"), []⟩], []⟩,
   ⟨["Option"], [("T", (some 274))], .variant [⟨"None", [], 0, []⟩, ⟨"Some", [⟨none, 274, none, []⟩], 1, []⟩], []⟩,
   ⟨["pallet_nomination_pools", "CommissionClaimPermission"], [("AccountId", (some 0))], .variant [⟨"Permissionless", [], 0, []⟩, ⟨"Account", [⟨none, 0, (some "AccountId"), []⟩], 1, []⟩], []⟩,
   ⟨["pallet_fast_unstake", "pallet", "Call"], [("T", none)], .variant [⟨"register_fast_unstake", [], 0, []⟩, ⟨"deregister", [], 1, []⟩, ⟨"control", [⟨(some "eras_to_check"), 4, (some "EraIndex"), []⟩], 2, []⟩], []⟩,
   ⟨["polkadot_runtime_parachains", "configuration", "pallet", "Call"], [("T", none)], .variant [⟨"set_validation_upgrade_cooldown", [⟨(some "new"), 4, (some "BlockNumberFor<T>"), []⟩], 0, []⟩, ⟨"set_validation_upgrade_delay", [⟨(some "new"), 4, (some "BlockNumberFor<T>"), []⟩], 1, []⟩, ⟨"set_code_retention_period", [⟨(some "new"), 4, (some "BlockNumberFor<T>"), []⟩], 2, []⟩, ⟨"set_max_code_size", [⟨(some "new"), 4, (some "u32"), []⟩], 3, []⟩, ⟨"set_max_pov_size", [⟨(some "new"), 4, (some "u32"), []⟩], 4, []⟩, ⟨"set_max_head_data_size", [⟨(some "new"), 4, (some "u32"), []⟩], 5, []⟩, ⟨"set_coretime_cores", [⟨(some "new"), 4, (some "u32"), []⟩], 6, []⟩, ⟨"set_max_availability_timeouts", [⟨(some "new"), 4, (some "u32"), []⟩], 7, []⟩, ⟨"set_group_rotation_frequency", [⟨(some "new"), 4, (some "BlockNumberFor<T>"), []⟩], 8, []⟩, ⟨"set_paras_availability_period", [⟨(some "new"), 4, (some "BlockNumberFor<T>"), []⟩], 9, []⟩, ⟨"set_scheduling_lookahead", [⟨(some "new"), 4, (some "u32"), []⟩], 11, []⟩, ⟨"set_max_validators_per_core", [⟨(some "new"), 152, (some "Option<u32>"), []⟩], 12, []⟩, ⟨"set_max_validators", [⟨(some "new"), 152, (some "Option<u32>"), []⟩], 13, []⟩, ⟨"set_dispute_period", [⟨(some "new"), 4, (some "SessionIndex"), []⟩], 14, []⟩, ⟨"set_dispute_post_conclusion_acceptance_period", [⟨(some "new"), 4, (some "BlockNumberFor<T>"), []⟩], 15, []⟩, ⟨"set_no_show_slots", [⟨(some "new"), 4, (some "u32"), []⟩], 18, []⟩, ⟨"set_n_delay_tranches", [⟨(some "new"), 4, (some "u32"), []⟩], 19, []⟩, ⟨"set_zeroth_delay_tranche_width", [⟨(some "new"), 4, (some "u32"), []⟩], 20, []⟩, ⟨"set_needed_approvals", [⟨(some "new"), 4, (some "u32"), []⟩], 21, []⟩, ⟨"set_relay_vrf_modulo_samples", [⟨(some "new"), 4, (some "u32"), []⟩], 22, []⟩, ⟨"set_max_upward_queue_count", [⟨(some "new"), 4, (some "u32"), []⟩], 23, []⟩, ⟨"set_max_upward_queue_size", [⟨(some "new"), 4, (some "u32"), []⟩], 24, []⟩, ⟨"set_max_downward_message_size", [⟨(some "new"), 4, (some "u32"), []⟩], 25, []⟩, ⟨"set_max_upward_message_size", [⟨(some "new"), 4, (some "u32"), []⟩], 27, []⟩, ⟨"set_max_upward_message_num_per_candidate", [⟨(some "new"), 4, (some "u32"), []⟩], 28, []⟩, ⟨"set_hrmp_open_request_ttl", [⟨(some "new"), 4, (some "u32"), []⟩], 29, []⟩, ⟨"set_hrmp_sender_deposit", [⟨(some "new"), 6, (some "Balance"), []⟩], 30, []⟩, ⟨"set_hrmp_recipient_deposit", [⟨(some "new"), 6, (some "Balance"), []⟩], 31, []⟩, ⟨"set_hrmp_channel_max_capacity", [⟨(some "new"), 4, (some "u32"), []⟩], 32, []⟩, ⟨"set_hrmp_channel_max_total_size", [⟨(some "new"), 4, (some "u32"), []⟩], 33, []⟩, ⟨"set_hrmp_max_parachain_inbound_channels", [⟨(some "new"), 4, (some "u32"), []⟩], 34, []⟩, ⟨"set_hrmp_channel_max_message_size", [⟨(some "new"), 4, (some "u32"), []⟩], 36, []⟩, ⟨"set_hrmp_max_parachain_outbound_channels", [⟨(some "new"), 4, (some "u32"), []⟩], 37, []⟩, ⟨"set_hrmp_max_message_num_per_candidate", [⟨(some "new"), 4, (some "u32"), []⟩], 39, []⟩, ⟨"set_pvf_voting_ttl", [⟨(some "new"), 4, (some "SessionIndex"), []⟩], 42, []⟩, ⟨"set_minimum_validation_upgrade_delay", [⟨(some "new"), 4, (some "BlockNumberFor<T>"), []⟩], 43, []⟩, ⟨"set_bypass_consistency_check", [⟨(some "new"), 8, (some "bool"), []⟩], 44, []⟩, ⟨"set_async_backing_params", [⟨(some "new"), 277, (some "AsyncBackingParams"), []⟩], 45, []⟩, ⟨"set_executor_params", [⟨(some "new"), 278, (some "ExecutorParams"), []⟩], 46, []⟩, ⟨"set_on_demand_base_fee", [⟨(some "new"), 6, (some "Balance"), []⟩], 47, []⟩, ⟨"set_on_demand_fee_variability", [⟨(some "new"), 43, (some "Perbill"), []⟩], 48, []⟩, ⟨"set_on_demand_queue_max_size", [⟨(some "new"), 4, (some "u32"), []⟩], 49, []⟩, ⟨"set_on_demand_target_queue_utilization", [⟨(some "new"), 43, (some "Perbill"), []⟩], 50, []⟩, ⟨"set_on_demand_ttl", [⟨(some "new"), 4, (some "BlockNumberFor<T>"), []⟩], 51, []⟩, ⟨"set_minimum_backing_votes", [⟨(some "new"), 4, (some "u32"), []⟩], 52, []⟩, ⟨"set_node_feature", [⟨(some "index"), 2, (some "u8"), []⟩, ⟨(some "value"), 8, (some "bool"), []⟩], 53, []⟩, ⟨"set_approval_voting_params", [⟨(some "new"), 283, (some "ApprovalVotingParams"), []⟩], 54, []⟩, ⟨"set_scheduler_params", [⟨(some "new"), 284, (some "SchedulerParams<BlockNumberFor<T>>"), []⟩], 55, []⟩], []⟩,
   ⟨["polkadot_primitives", "v7", "async_backing", "AsyncBackingParams"], [], .composite [⟨(some "max_candidate_depth"), 4, (some "u32"), []⟩, ⟨(some "allowed_ancestry_len"), 4, (some "u32"), []⟩], []⟩,
   ⟨["polkadot_primitives", "v7", "executor_params", "ExecutorParams"], [], .composite [⟨none, 279, (some "Vec<ExecutorParam>"), []⟩], []⟩,
   ⟨[], [], .sequence 280, []⟩,
   ⟨["polkadot_primitives", "v7", "executor_params", "ExecutorParam"], [], .variant [⟨"MaxMemoryPages", [⟨none, 4, (some "u32"), []⟩], 1, []⟩, ⟨"StackLogicalMax", [⟨none, 4, (some "u32"), []⟩], 2, []⟩, ⟨"StackNativeMax", [⟨none, 4, (some "u32"), []⟩], 3, []⟩, ⟨"PrecheckingMaxMemory", [⟨none, 12, (some "u64"), []⟩], 4, []⟩, ⟨"PvfPrepTimeout", [⟨none, 281, (some "PvfPrepKind"), []⟩, ⟨none, 12, (some "u64"), []⟩], 5, []⟩, ⟨"PvfExecTimeout", [⟨none, 282, (some "PvfExecKind"), []⟩, ⟨none, 12, (some "u64"), []⟩], 6, []⟩, ⟨"WasmExtBulkMemory", [], 7, []⟩], []⟩,
   ⟨["polkadot_primitives", "v7", "PvfPrepKind"], [], .variant [⟨"Precheck", [], 0, []⟩, ⟨"Prepare", [], 1, []⟩], []⟩,
   ⟨["polkadot_primitives", "v7", "PvfExecKind"], [], .variant [⟨"Backing", [], 0, []⟩, ⟨"Approval", [], 1, []⟩], []⟩,
   ⟨["polkadot_primitives", "v7", "ApprovalVotingParams"], [], .composite [⟨(some "max_approval_coalesce_count"), 4, (some "u32"), []⟩], []⟩,
   ⟨["polkadot_primitives", "vstaging", "SchedulerParams"], [("BlockNumber", (some 4))], .composite [⟨(some "group_rotation_frequency"), 4, (some "BlockNumber"), []⟩, ⟨(some "paras_availability_period"), 4, (some "BlockNumber"), []⟩, ⟨(some "max_validators_per_core"), 152, (some "Option<u32>"), []⟩, ⟨(some "lookahead"), 4, (some "u32"), []⟩, ⟨(some "num_cores"), 4, (some "u32"), []⟩, ⟨(some "max_availability_timeouts"), 4, (some "u32"), []⟩, ⟨(some "on_demand_queue_max_size"), 4, (some "u32"), []⟩, ⟨(some "on_demand_target_queue_utilization"), 43, (some "Perbill"), []⟩, ⟨(some "on_demand_fee_variability"), 43, (some "Perbill"), []⟩, ⟨(some "on_demand_base_fee"), 6, (some "Balance"), []⟩, ⟨(some "ttl"), 4, (some "BlockNumber"), []⟩], []⟩,
   ⟨["polkadot_runtime_parachains", "shared", "pallet", "Call"], [("T", none)], .variant [], []⟩,
   ⟨["polkadot_runtime_parachains", "inclusion", "pallet", "Call"], [("T", none)], .variant [], []⟩,
   ⟨["polkadot_runtime_parachains", "paras_inherent", "pallet", "Call"], [("T", none)], .variant [⟨"enter", [⟨(some "data"), 288, (some "ParachainsInherentData<HeaderFor<T>>"), []⟩], 0, []⟩], []⟩]

/-- Types 288 to 319 of `for_tests/polkadot1003003_v15`. -/
def types9 : List Typ :=
  [⟨["polkadot_primitives", "v7", "InherentData"], [("HDR", (some 104))], .composite [⟨(some "bitfields"), 289, (some "UncheckedSignedAvailabilityBitfields"), []⟩, ⟨(some "backed_candidates"), 296, (some "Vec<BackedCandidate<HDR::Hash>>"), []⟩, ⟨(some "disputes"), 313, (some "MultiDisputeStatementSet"), []⟩, ⟨(some "parent_header"), 104, (some "HDR"), []⟩], []⟩,
   ⟨[], [], .sequence 290, []⟩,
   ⟨["polkadot_primitives", "v7", "signed", "UncheckedSigned"], [("Payload", (some 291)), ("RealPayload", (some 291))], .composite [⟨(some "payload"), 291, (some "Payload"), []⟩, ⟨(some "validator_index"), 294, (some "ValidatorIndex"), []⟩, ⟨(some "signature"), 295, (some "ValidatorSignature"), []⟩], []⟩,
   ⟨["polkadot_primitives", "v7", "AvailabilityBitfield"], [], .composite [⟨none, 292, (some "BitVec<u8, bitvec::order::Lsb0>"), []⟩], []⟩,
   ⟨[], [], .bitSequence 293 2, []⟩,
   ⟨["bitvec", "order", "Lsb0"], [], .composite [], []⟩,
   ⟨["polkadot_primitives", "v7", "ValidatorIndex"], [], .composite [⟨none, 4, (some "u32"), []⟩], []⟩,
   ⟨["polkadot_primitives", "v7", "validator_app", "Signature"], [], .composite [⟨none, 146, (some "sr25519::Signature"), []⟩], []⟩,
   ⟨[], [], .sequence 297, []⟩,
   ⟨["polkadot_primitives", "v7", "BackedCandidate"], [("H", (some 13))], .composite [⟨(some "candidate"), 298, (some "CommittedCandidateReceipt<H>"), []⟩, ⟨(some "validity_votes"), 311, (some "Vec<ValidityAttestation>"), []⟩, ⟨(some "validator_indices"), 292, (some "BitVec<u8, bitvec::order::Lsb0>"), []⟩], []⟩,
   ⟨["polkadot_primitives", "v7", "CommittedCandidateReceipt"], [("H", (some 13))], .composite [⟨(some "descriptor"), 299, (some "CandidateDescriptor<H>"), []⟩, ⟨(some "commitments"), 303, (some "CandidateCommitments"), []⟩], []⟩,
   ⟨["polkadot_primitives", "v7", "CandidateDescriptor"], [("H", (some 13))], .composite [⟨(some "para_id"), 163, (some "Id"), []⟩, ⟨(some "relay_parent"), 13, (some "H"), []⟩, ⟨(some "collator"), 300, (some "CollatorId"), []⟩, ⟨(some "persisted_validation_data_hash"), 13, (some "Hash"), []⟩, ⟨(some "pov_hash"), 13, (some "Hash"), []⟩, ⟨(some "erasure_root"), 13, (some "Hash"), []⟩, ⟨(some "signature"), 301, (some "CollatorSignature"), []⟩, ⟨(some "para_head"), 13, (some "Hash"), []⟩, ⟨(some "validation_code_hash"), 302, (some "ValidationCodeHash"), []⟩], []⟩,
   ⟨["polkadot_primitives", "v7", "collator_app", "Public"], [], .composite [⟨none, 1, (some "sr25519::Public"), []⟩], []⟩,
   ⟨["polkadot_primitives", "v7", "collator_app", "Signature"], [], .composite [⟨none, 146, (some "sr25519::Signature"), []⟩], []⟩,
   ⟨["polkadot_parachain_primitives", "primitives", "ValidationCodeHash"], [], .composite [⟨none, 13, (some "Hash"), []⟩], []⟩,
   ⟨["polkadot_primitives", "v7", "CandidateCommitments"], [("N", (some 4))], .composite [⟨(some "upward_messages"), 304, (some "UpwardMessages"), []⟩, ⟨(some "horizontal_messages"), 305, (some "HorizontalMessages"), []⟩, ⟨(some "new_validation_code"), 308, (some "Option<ValidationCode>"), []⟩, ⟨(some "head_data"), 310, (some "HeadData"), []⟩, ⟨(some "processed_downward_messages"), 4, (some "u32"), []⟩, ⟨(some "hrmp_watermark"), 4, (some "N"), []⟩], []⟩,
   ⟨["bounded_collections", "bounded_vec", "BoundedVec"], [("T", (some 14)), ("S", none)], .composite [⟨none, 97, (some "Vec<T>"), []⟩], []⟩,
   ⟨["bounded_collections", "bounded_vec", "BoundedVec"], [("T", (some 306)), ("S", none)], .composite [⟨none, 307, (some "Vec<T>"), []⟩], []⟩,
   ⟨["polkadot_core_primitives", "OutboundHrmpMessage"], [("Id", (some 163))], .composite [⟨(some "recipient"), 163, (some "Id"), []⟩, ⟨(some "data"), 14, (some "sp_std::vec::Vec<u8>"), []⟩], []⟩,
   ⟨[], [], .sequence 306, []⟩,
   ⟨["Option"], [("T", (some 309))], .variant [⟨"None", [], 0, []⟩, ⟨"Some", [⟨none, 309, none, []⟩], 1, []⟩], []⟩,
   ⟨["polkadot_parachain_primitives", "primitives", "ValidationCode"], [], .composite [⟨none, 14, (some "Vec<u8>"), []⟩], []⟩,
   ⟨["polkadot_parachain_primitives", "primitives", "HeadData"], [], .composite [⟨none, 14, (some "Vec<u8>"), []⟩], []⟩,
   ⟨[], [], .sequence 312, []⟩,
   ⟨["polkadot_primitives", "v7", "ValidityAttestation"], [], .variant [⟨"Implicit", [⟨none, 295, (some "ValidatorSignature"), []⟩], 1, []⟩, ⟨"Explicit", [⟨none, 295, (some "ValidatorSignature"), []⟩], 2, []⟩], []⟩,
   ⟨[], [], .sequence 314, []⟩,
   ⟨["polkadot_primitives", "v7", "DisputeStatementSet"], [], .composite [⟨(some "candidate_hash"), 315, (some "CandidateHash"), []⟩, ⟨(some "session"), 4, (some "SessionIndex"), []⟩, ⟨(some "statements"), 316, (some "Vec<(DisputeStatement, ValidatorIndex, ValidatorSignature)>"), []⟩], []⟩,
   ⟨["polkadot_core_primitives", "CandidateHash"], [], .composite [⟨none, 13, (some "Hash"), []⟩], []⟩,
   ⟨[], [], .sequence 317, []⟩,
   ⟨[], [], .tuple [318, 294, 295], []⟩,
   ⟨["polkadot_primitives", "v7", "DisputeStatement"], [], .variant [⟨"Valid", [⟨none, 319, (some "ValidDisputeStatementKind"), []⟩], 0, []⟩, ⟨"Invalid", [⟨none, 321, (some "InvalidDisputeStatementKind"), []⟩], 1, []⟩], []⟩,
   ⟨["polkadot_primitives", "v7", "ValidDisputeStatementKind"], [], .variant [⟨"Explicit", [], 0, []⟩, ⟨"BackingSeconded", [⟨none, 13, (some "Hash"), []⟩], 1, []⟩, ⟨"BackingValid", [⟨none, 13, (some "Hash"), []⟩], 2, []⟩, ⟨"ApprovalChecking", [], 3, []⟩, ⟨"ApprovalCheckingMultipleCandidates", [⟨none, 320, (some "Vec<CandidateHash>"), []⟩], 4, []⟩], []⟩]

/-- Types 320 to 351 of `for_tests/polkadot1003003_v15`. -/
def types10 : List Typ :=
  [⟨[], [], .sequence 315, []⟩,
   ⟨["polkadot_primitives", "v7", "InvalidDisputeStatementKind"], [], .variant [⟨"Explicit", [], 0, []⟩], []⟩,
   ⟨["polkadot_runtime_parachains", "paras", "pallet", "Call"], [("T", none)], .variant [⟨"force_set_current_code", [⟨(some "para"), 163, (some "ParaId"), []⟩, ⟨(some "new_code"), 309, (some "ValidationCode"), []⟩], 0, []⟩, ⟨"force_set_current_head", [⟨(some "para"), 163, (some "ParaId"), []⟩, ⟨(some "new_head"), 310, (some "HeadData"), []⟩], 1, []⟩, ⟨"force_schedule_code_upgrade", [⟨(some "para"), 163, (some "ParaId"), []⟩, ⟨(some "new_code"), 309, (some "ValidationCode"), []⟩, ⟨(some "relay_parent_number"), 4, (some "BlockNumberFor<T>"), []⟩], 2, []⟩, ⟨"force_note_new_head", [⟨(some "para"), 163, (some "ParaId"), []⟩, ⟨(some "new_head"), 310, (some "HeadData"), []⟩], 3, []⟩, ⟨"force_queue_action", [⟨(some "para"), 163, (some "ParaId"), []⟩], 4, []⟩, ⟨"add_trusted_validation_code", [⟨(some "validation_code"), 309, (some "ValidationCode"), []⟩], 5, []⟩, ⟨"poke_unused_validation_code", [⟨(some "validation_code_hash"), 302, (some "ValidationCodeHash"), []⟩], 6, []⟩, ⟨"include_pvf_check_statement", [⟨(some "stmt"), 323, (some "PvfCheckStatement"), []⟩, ⟨(some "signature"), 295, (some "ValidatorSignature"), []⟩], 7, []⟩, ⟨"force_set_most_recent_context", [⟨(some "para"), 163, (some "ParaId"), []⟩, ⟨(some "context"), 4, (some "BlockNumberFor<T>"), []⟩], 8, []⟩], []⟩,
   ⟨["polkadot_primitives", "v7", "PvfCheckStatement"], [], .composite [⟨(some "accept"), 8, (some "bool"), []⟩, ⟨(some "subject"), 302, (some "ValidationCodeHash"), []⟩, ⟨(some "session_index"), 4, (some "SessionIndex"), []⟩, ⟨(some "validator_index"), 294, (some "ValidatorIndex"), []⟩], []⟩,
   ⟨["polkadot_runtime_parachains", "initializer", "pallet", "Call"], [("T", none)], .variant [⟨"force_approve", [⟨(some "up_to"), 4, (some "BlockNumber"), []⟩], 0, []⟩], []⟩,
   ⟨["polkadot_runtime_parachains", "hrmp", "pallet", "Call"], [("T", none)], .variant [⟨"hrmp_init_open_channel", [⟨(some "recipient"), 163, (some "ParaId"), []⟩, ⟨(some "proposed_max_capacity"), 4, (some "u32"), []⟩, ⟨(some "proposed_max_message_size"), 4, (some "u32"), []⟩], 0, []⟩, ⟨"hrmp_accept_open_channel", [⟨(some "sender"), 163, (some "ParaId"), []⟩], 1, []⟩, ⟨"hrmp_close_channel", [⟨(some "channel_id"), 326, (some "HrmpChannelId"), []⟩], 2, []⟩, ⟨"force_clean_hrmp", [⟨(some "para"), 163, (some "ParaId"), []⟩, ⟨(some "num_inbound"), 4, (some "u32"), []⟩, ⟨(some "num_outbound"), 4, (some "u32"), []⟩], 3, []⟩, ⟨"force_process_hrmp_open", [⟨(some "channels"), 4, (some "u32"), []⟩], 4, []⟩, ⟨"force_process_hrmp_close", [⟨(some "channels"), 4, (some "u32"), []⟩], 5, []⟩, ⟨"hrmp_cancel_open_request", [⟨(some "channel_id"), 326, (some "HrmpChannelId"), []⟩, ⟨(some "open_requests"), 4, (some "u32"), []⟩], 6, []⟩, ⟨"force_open_hrmp_channel", [⟨(some "sender"), 163, (some "ParaId"), []⟩, ⟨(some "recipient"), 163, (some "ParaId"), []⟩, ⟨(some "max_capacity"), 4, (some "u32"), []⟩, ⟨(some "max_message_size"), 4, (some "u32"), []⟩], 7, []⟩, ⟨"establish_system_channel", [⟨(some "sender"), 163, (some "ParaId"), []⟩, ⟨(some "recipient"), 163, (some "ParaId"), []⟩], 8, []⟩, ⟨"poke_channel_deposits", [⟨(some "sender"), 163, (some "ParaId"), []⟩, ⟨(some "recipient"), 163, (some "ParaId"), []⟩], 9, []⟩, ⟨"establish_channel_with_system", [⟨(some "target_system_chain"), 163, (some "ParaId"), []⟩], 10, []⟩], []⟩,
   ⟨["polkadot_parachain_primitives", "primitives", "HrmpChannelId"], [], .composite [⟨(some "sender"), 163, (some "Id"), []⟩, ⟨(some "recipient"), 163, (some "Id"), []⟩], []⟩,
   ⟨["polkadot_runtime_parachains", "disputes", "pallet", "Call"], [("T", none)], .variant [⟨"force_unfreeze", [], 0, []⟩], []⟩,
   ⟨["polkadot_runtime_parachains", "disputes", "slashing", "pallet", "Call"], [("T", none)], .variant [⟨"report_dispute_lost_unsigned", [⟨(some "dispute_proof"), 329, (some "Box<DisputeProof>"), []⟩, ⟨(some "key_owner_proof"), 107, (some "T::KeyOwnerProof"), []⟩], 0, []⟩], []⟩,
   ⟨["polkadot_primitives", "v7", "slashing", "DisputeProof"], [], .composite [⟨(some "time_slot"), 330, (some "DisputesTimeSlot"), []⟩, ⟨(some "kind"), 331, (some "SlashingOffenceKind"), []⟩, ⟨(some "validator_index"), 294, (some "ValidatorIndex"), []⟩, ⟨(some "validator_id"), 135, (some "ValidatorId"), []⟩], []⟩,
   ⟨["polkadot_primitives", "v7", "slashing", "DisputesTimeSlot"], [], .composite [⟨(some "session_index"), 4, (some "SessionIndex"), []⟩, ⟨(some "candidate_hash"), 315, (some "CandidateHash"), []⟩], []⟩,
   ⟨["polkadot_primitives", "v7", "slashing", "SlashingOffenceKind"], [], .variant [⟨"ForInvalid", [], 0, []⟩, ⟨"AgainstValid", [], 1, []⟩], []⟩,
   ⟨["polkadot_runtime_parachains", "assigner_on_demand", "pallet", "Call"], [("T", none)], .variant [⟨"place_order_allow_death", [⟨(some "max_amount"), 6, (some "BalanceOf<T>"), []⟩, ⟨(some "para_id"), 163, (some "ParaId"), []⟩], 0, []⟩, ⟨"place_order_keep_alive", [⟨(some "max_amount"), 6, (some "BalanceOf<T>"), []⟩, ⟨(some "para_id"), 163, (some "ParaId"), []⟩], 1, []⟩], []⟩,
   ⟨["polkadot_runtime_common", "paras_registrar", "pallet", "Call"], [("T", none)], .variant [⟨"register", [⟨(some "id"), 163, (some "ParaId"), []⟩, ⟨(some "genesis_head"), 310, (some "HeadData"), []⟩, ⟨(some "validation_code"), 309, (some "ValidationCode"), []⟩], 0, []⟩, ⟨"force_register", [⟨(some "who"), 0, (some "T::AccountId"), []⟩, ⟨(some "deposit"), 6, (some "BalanceOf<T>"), []⟩, ⟨(some "id"), 163, (some "ParaId"), []⟩, ⟨(some "genesis_head"), 310, (some "HeadData"), []⟩, ⟨(some "validation_code"), 309, (some "ValidationCode"), []⟩], 1, []⟩, ⟨"deregister", [⟨(some "id"), 163, (some "ParaId"), []⟩], 2, []⟩, ⟨"swap", [⟨(some "id"), 163, (some "ParaId"), []⟩, ⟨(some "other"), 163, (some "ParaId"), []⟩], 3, []⟩, ⟨"remove_lock", [⟨(some "para"), 163, (some "ParaId"), []⟩], 4, []⟩, ⟨"reserve", [], 5, []⟩, ⟨"add_lock", [⟨(some "para"), 163, (some "ParaId"), []⟩], 6, []⟩, ⟨"schedule_code_upgrade", [⟨(some "para"), 163, (some "ParaId"), []⟩, ⟨(some "new_code"), 309, (some "ValidationCode"), []⟩], 7, []⟩, ⟨"set_current_head", [⟨(some "para"), 163, (some "ParaId"), []⟩, ⟨(some "new_head"), 310, (some "HeadData"), []⟩], 8, []⟩], []⟩,
   ⟨["polkadot_runtime_common", "slots", "pallet", "Call"], [("T", none)], .variant [⟨"force_lease", [⟨(some "para"), 163, (some "ParaId"), []⟩, ⟨(some "leaser"), 0, (some "T::AccountId"), []⟩, ⟨(some "amount"), 6, (some "BalanceOf<T>"), []⟩, ⟨(some "period_begin"), 4, (some "LeasePeriodOf<T>"), []⟩, ⟨(some "period_count"), 4, (some "LeasePeriodOf<T>"), []⟩], 0, []⟩, ⟨"clear_all_leases", [⟨(some "para"), 163, (some "ParaId"), []⟩], 1, []⟩, ⟨"trigger_onboard", [⟨(some "para"), 163, (some "ParaId"), []⟩], 2, []⟩], []⟩,
   ⟨["polkadot_runtime_common", "auctions", "pallet", "Call"], [("T", none)], .variant [⟨"new_auction", [⟨(some "duration"), 59, (some "BlockNumberFor<T>"), []⟩, ⟨(some "lease_period_index"), 59, (some "LeasePeriodOf<T>"), []⟩], 0, []⟩, ⟨"bid", [⟨(some "para"), 336, (some "ParaId"), []⟩, ⟨(some "auction_index"), 59, (some "AuctionIndex"), []⟩, ⟨(some "first_slot"), 59, (some "LeasePeriodOf<T>"), []⟩, ⟨(some "last_slot"), 59, (some "LeasePeriodOf<T>"), []⟩, ⟨(some "amount"), 63, (some "BalanceOf<T>"), []⟩], 1, []⟩, ⟨"cancel_auction", [], 2, []⟩], []⟩,
   ⟨[], [], .compact 163, []⟩,
   ⟨["polkadot_runtime_common", "crowdloan", "pallet", "Call"], [("T", none)], .variant [⟨"create", [⟨(some "index"), 336, (some "ParaId"), []⟩, ⟨(some "cap"), 63, (some "BalanceOf<T>"), []⟩, ⟨(some "first_period"), 59, (some "LeasePeriodOf<T>"), []⟩, ⟨(some "last_period"), 59, (some "LeasePeriodOf<T>"), []⟩, ⟨(some "end"), 59, (some "BlockNumberFor<T>"), []⟩, ⟨(some "verifier"), 338, (some "Option<MultiSigner>"), []⟩], 0, []⟩, ⟨"contribute", [⟨(some "index"), 336, (some "ParaId"), []⟩, ⟨(some "value"), 63, (some "BalanceOf<T>"), []⟩, ⟨(some "signature"), 340, (some "Option<MultiSignature>"), []⟩], 1, []⟩, ⟨"withdraw", [⟨(some "who"), 0, (some "T::AccountId"), []⟩, ⟨(some "index"), 336, (some "ParaId"), []⟩], 2, []⟩, ⟨"refund", [⟨(some "index"), 336, (some "ParaId"), []⟩], 3, []⟩, ⟨"dissolve", [⟨(some "index"), 336, (some "ParaId"), []⟩], 4, []⟩, ⟨"edit", [⟨(some "index"), 336, (some "ParaId"), []⟩, ⟨(some "cap"), 63, (some "BalanceOf<T>"), []⟩, ⟨(some "first_period"), 59, (some "LeasePeriodOf<T>"), []⟩, ⟨(some "last_period"), 59, (some "LeasePeriodOf<T>"), []⟩, ⟨(some "end"), 59, (some "BlockNumberFor<T>"), []⟩, ⟨(some "verifier"), 338, (some "Option<MultiSigner>"), []⟩], 5, []⟩, ⟨"add_memo", [⟨(some "index"), 163, (some "ParaId"), []⟩, ⟨(some "memo"), 14, (some "Vec<u8>"), []⟩], 6, []⟩, ⟨"poke", [⟨(some "index"), 163, (some "ParaId"), []⟩], 7, []⟩, ⟨"contribute_all", [⟨(some "index"), 336, (some "ParaId"), []⟩, ⟨(some "signature"), 340, (some "Option<MultiSignature>"), []⟩], 8, []⟩], []⟩,
   ⟨["Option"], [("T", (some 339))], .variant [⟨"None", [], 0, []⟩, ⟨"Some", [⟨none, 339, none, []⟩], 1, []⟩], []⟩,
   ⟨["sp_runtime", "MultiSigner"], [], .variant [⟨"Ed25519", [⟨none, 1, (some "ed25519::Public"), []⟩], 0, []⟩, ⟨"Sr25519", [⟨none, 1, (some "sr25519::Public"), []⟩], 1, []⟩, ⟨"Ecdsa", [⟨none, 139, (some "ecdsa::Public"), []⟩], 2, []⟩], []⟩,
   ⟨["Option"], [("T", (some 341))], .variant [⟨"None", [], 0, []⟩, ⟨"Some", [⟨none, 341, none, []⟩], 1, []⟩], []⟩,
   ⟨["sp_runtime", "MultiSignature"], [], .variant [⟨"Ed25519", [⟨none, 146, (some "ed25519::Signature"), []⟩], 0, []⟩, ⟨"Sr25519", [⟨none, 146, (some "sr25519::Signature"), []⟩], 1, []⟩, ⟨"Ecdsa", [⟨none, 182, (some "ecdsa::Signature"), []⟩], 2, []⟩], []⟩,
   ⟨["polkadot_runtime_parachains", "coretime", "pallet", "Call"], [("T", none)], .variant [⟨"request_core_count", [⟨(some "count"), 91, (some "u16"), []⟩], 1, []⟩, ⟨"request_revenue_at", [⟨(some "when"), 4, (some "BlockNumber"), []⟩], 2, []⟩, ⟨"assign_core", [⟨(some "core"), 91, (some "BrokerCoreIndex"), []⟩, ⟨(some "begin"), 4, (some "BlockNumberFor<T>"), []⟩, ⟨(some "assignment"), 343, (some "Vec<(CoreAssignment, PartsOf57600)>"), []⟩, ⟨(some "end_hint"), 152, (some "Option<BlockNumberFor<T>>"), []⟩], 4, []⟩], []⟩,
   ⟨[], [], .sequence 344, []⟩,
   ⟨[], [], .tuple [345, 346], []⟩,
   ⟨["pallet_broker", "coretime_interface", "CoreAssignment"], [], .variant [⟨"Idle", [], 0, []⟩, ⟨"Pool", [], 1, []⟩, ⟨"Task", [⟨none, 4, (some "TaskId"), []⟩], 2, []⟩], []⟩,
   ⟨["polkadot_runtime_parachains", "assigner_coretime", "PartsOf57600"], [], .composite [⟨none, 91, (some "u16"), []⟩], []⟩,
   ⟨["pallet_state_trie_migration", "pallet", "Call"], [("T", none)], .variant [⟨"control_auto_migration", [⟨(some "maybe_config"), 348, (some "Option<MigrationLimits>"), []⟩], 0, []⟩, ⟨"continue_migrate", [⟨(some "limits"), 349, (some "MigrationLimits"), []⟩, ⟨(some "real_size_upper"), 4, (some "u32"), []⟩, ⟨(some "witness_task"), 350, (some "MigrationTask<T>"), []⟩], 1, []⟩, ⟨"migrate_custom_top", [⟨(some "keys"), 97, (some "Vec<Vec<u8>>"), []⟩, ⟨(some "witness_size"), 4, (some "u32"), []⟩], 2, []⟩, ⟨"migrate_custom_child", [⟨(some "root"), 14, (some "Vec<u8>"), []⟩, ⟨(some "child_keys"), 97, (some "Vec<Vec<u8>>"), []⟩, ⟨(some "total_size"), 4, (some "u32"), []⟩], 3, []⟩, ⟨"set_signed_max_limits", [⟨(some "limits"), 349, (some "MigrationLimits"), []⟩], 4, []⟩, ⟨"force_set_progress", [⟨(some "progress_top"), 351, (some "ProgressOf<T>"), []⟩, ⟨(some "progress_child"), 351, (some "ProgressOf<T>"), []⟩], 5, []⟩], []⟩,
   ⟨["Option"], [("T", (some 349))], .variant [⟨"None", [], 0, []⟩, ⟨"Some", [⟨none, 349, none, []⟩], 1, []⟩], []⟩,
   ⟨["pallet_state_trie_migration", "pallet", "MigrationLimits"], [], .composite [⟨(some "size"), 4, (some "u32"), []⟩, ⟨(some "item"), 4, (some "u32"), []⟩], []⟩,
   ⟨["pallet_state_trie_migration", "pallet", "MigrationTask"], [("T", none)], .composite [⟨(some "progress_top"), 351, (some "ProgressOf<T>"), []⟩, ⟨(some "progress_child"), 351, (some "ProgressOf<T>"), []⟩, ⟨(some "size"), 4, (some "u32"), []⟩, ⟨(some "top_items"), 4, (some "u32"), []⟩, ⟨(some "child_items"), 4, (some "u32"), []⟩], []⟩,
   ⟨["pallet_state_trie_migration", "pallet", "Progress"], [("MaxKeyLen", none)], .variant [⟨"ToStart", [], 0, []⟩, ⟨"LastKey", [⟨none, 352, (some "BoundedVec<u8, MaxKeyLen>"), []⟩], 1, []⟩, ⟨"Complete", [], 2, []⟩], []⟩]

/-- Types 352 to 383 of `for_tests/polkadot1003003_v15`. -/
def types11 : List Typ :=
  [⟨["bounded_collections", "bounded_vec", "BoundedVec"], [("T", (some 2)), ("S", none)], .composite [⟨none, 14, (some "Vec<T>"), []⟩], []⟩,
   ⟨["pallet_xcm", "pallet", "Call"], [("T", none)], .variant [⟨"send", [⟨(some "dest"), 81, (some "Box<VersionedLocation>"), []⟩, ⟨(some "message"), 354, (some "Box<VersionedXcm<()>>"), []⟩], 0, []⟩, ⟨"teleport_assets", [⟨(some "dest"), 81, (some "Box<VersionedLocation>"), []⟩, ⟨(some "beneficiary"), 81, (some "Box<VersionedLocation>"), []⟩, ⟨(some "assets"), 418, (some "Box<VersionedAssets>"), []⟩, ⟨(some "fee_asset_item"), 4, (some "u32"), []⟩], 1, []⟩, ⟨"reserve_transfer_assets", [⟨(some "dest"), 81, (some "Box<VersionedLocation>"), []⟩, ⟨(some "beneficiary"), 81, (some "Box<VersionedLocation>"), []⟩, ⟨(some "assets"), 418, (some "Box<VersionedAssets>"), []⟩, ⟨(some "fee_asset_item"), 4, (some "u32"), []⟩], 2, []⟩, ⟨"execute", [⟨(some "message"), 419, (some "Box<VersionedXcm<<T as Config>::RuntimeCall>>"), []⟩, ⟨(some "max_weight"), 10, (some "Weight"), []⟩], 3, []⟩, ⟨"force_xcm_version", [⟨(some "location"), 67, (some "Box<Location>"), []⟩, ⟨(some "version"), 4, (some "XcmVersion"), []⟩], 4, []⟩, ⟨"force_default_xcm_version", [⟨(some "maybe_xcm_version"), 152, (some "Option<XcmVersion>"), []⟩], 5, []⟩, ⟨"force_subscribe_version_notify", [⟨(some "location"), 81, (some "Box<VersionedLocation>"), []⟩], 6, []⟩, ⟨"force_unsubscribe_version_notify", [⟨(some "location"), 81, (some "Box<VersionedLocation>"), []⟩], 7, []⟩, ⟨"limited_reserve_transfer_assets", [⟨(some "dest"), 81, (some "Box<VersionedLocation>"), []⟩, ⟨(some "beneficiary"), 81, (some "Box<VersionedLocation>"), []⟩, ⟨(some "assets"), 418, (some "Box<VersionedAssets>"), []⟩, ⟨(some "fee_asset_item"), 4, (some "u32"), []⟩, ⟨(some "weight_limit"), 399, (some "WeightLimit"), []⟩], 8, []⟩, ⟨"limited_teleport_assets", [⟨(some "dest"), 81, (some "Box<VersionedLocation>"), []⟩, ⟨(some "beneficiary"), 81, (some "Box<VersionedLocation>"), []⟩, ⟨(some "assets"), 418, (some "Box<VersionedAssets>"), []⟩, ⟨(some "fee_asset_item"), 4, (some "u32"), []⟩, ⟨(some "weight_limit"), 399, (some "WeightLimit"), []⟩], 9, []⟩, ⟨"force_suspension", [⟨(some "suspended"), 8, (some "bool"), []⟩], 10, []⟩, ⟨"transfer_assets", [⟨(some "dest"), 81, (some "Box<VersionedLocation>"), []⟩, ⟨(some "beneficiary"), 81, (some "Box<VersionedLocation>"), []⟩, ⟨(some "assets"), 418, (some "Box<VersionedAssets>"), []⟩, ⟨(some "fee_asset_item"), 4, (some "u32"), []⟩, ⟨(some "weight_limit"), 399, (some "WeightLimit"), []⟩], 11, []⟩, ⟨"claim_assets", [⟨(some "assets"), 418, (some "Box<VersionedAssets>"), []⟩, ⟨(some "beneficiary"), 81, (some "Box<VersionedLocation>"), []⟩], 12, []⟩, ⟨"transfer_assets_using_type_and_then", [⟨(some "dest"), 81, (some "Box<VersionedLocation>"), []⟩, ⟨(some "assets"), 418, (some "Box<VersionedAssets>"), []⟩, ⟨(some "assets_transfer_type"), 430, (some "Box<TransferType>"), []⟩, ⟨(some "remote_fees_id"), 431, (some "Box<VersionedAssetId>"), []⟩, ⟨(some "fees_transfer_type"), 430, (some "Box<TransferType>"), []⟩, ⟨(some "custom_xcm_on_dest"), 354, (some "Box<VersionedXcm<()>>"), []⟩, ⟨(some "weight_limit"), 399, (some "WeightLimit"), []⟩], 13, []⟩], []⟩,
   ⟨["xcm", "VersionedXcm"], [("RuntimeCall", none)], .variant [⟨"V2", [⟨none, 355, (some "v2::Xcm<RuntimeCall>"), []⟩], 2, []⟩, ⟨"V3", [⟨none, 375, (some "v3::Xcm<RuntimeCall>"), []⟩], 3, []⟩, ⟨"V4", [⟨none, 400, (some "v4::Xcm<RuntimeCall>"), []⟩], 4, []⟩], []⟩,
   ⟨["xcm", "v2", "Xcm"], [("RuntimeCall", none)], .composite [⟨none, 356, (some "Vec<Instruction<RuntimeCall>>"), []⟩], []⟩,
   ⟨[], [], .sequence 357, []⟩,
   ⟨["xcm", "v2", "Instruction"], [("RuntimeCall", none)], .variant [⟨"WithdrawAsset", [⟨none, 358, (some "MultiAssets"), []⟩], 0, []⟩, ⟨"ReserveAssetDeposited", [⟨none, 358, (some "MultiAssets"), []⟩], 1, []⟩, ⟨"ReceiveTeleportedAsset", [⟨none, 358, (some "MultiAssets"), []⟩], 2, []⟩, ⟨"QueryResponse", [⟨(some "query_id"), 11, (some "QueryId"), []⟩, ⟨(some "response"), 365, (some "Response"), []⟩, ⟨(some "max_weight"), 11, (some "u64"), []⟩], 3, []⟩, ⟨"TransferAsset", [⟨(some "assets"), 358, (some "MultiAssets"), []⟩, ⟨(some "beneficiary"), 82, (some "MultiLocation"), []⟩], 4, []⟩, ⟨"TransferReserveAsset", [⟨(some "assets"), 358, (some "MultiAssets"), []⟩, ⟨(some "dest"), 82, (some "MultiLocation"), []⟩, ⟨(some "xcm"), 355, (some "Xcm<()>"), []⟩], 5, []⟩, ⟨"Transact", [⟨(some "origin_type"), 369, (some "OriginKind"), []⟩, ⟨(some "require_weight_at_most"), 11, (some "u64"), []⟩, ⟨(some "call"), 370, (some "DoubleEncoded<RuntimeCall>"), []⟩], 6, []⟩, ⟨"HrmpNewChannelOpenRequest", [⟨(some "sender"), 59, (some "u32"), []⟩, ⟨(some "max_message_size"), 59, (some "u32"), []⟩, ⟨(some "max_capacity"), 59, (some "u32"), []⟩], 7, []⟩, ⟨"HrmpChannelAccepted", [⟨(some "recipient"), 59, (some "u32"), []⟩], 8, []⟩, ⟨"HrmpChannelClosing", [⟨(some "initiator"), 59, (some "u32"), []⟩, ⟨(some "sender"), 59, (some "u32"), []⟩, ⟨(some "recipient"), 59, (some "u32"), []⟩], 9, []⟩, ⟨"ClearOrigin", [], 10, []⟩, ⟨"DescendOrigin", [⟨none, 83, (some "InteriorMultiLocation"), []⟩], 11, []⟩, ⟨"ReportError", [⟨(some "query_id"), 11, (some "QueryId"), []⟩, ⟨(some "dest"), 82, (some "MultiLocation"), []⟩, ⟨(some "max_response_weight"), 11, (some "u64"), []⟩], 12, []⟩, ⟨"DepositAsset", [⟨(some "assets"), 371, (some "MultiAssetFilter"), []⟩, ⟨(some "max_assets"), 59, (some "u32"), []⟩, ⟨(some "beneficiary"), 82, (some "MultiLocation"), []⟩], 13, []⟩, ⟨"DepositReserveAsset", [⟨(some "assets"), 371, (some "MultiAssetFilter"), []⟩, ⟨(some "max_assets"), 59, (some "u32"), []⟩, ⟨(some "dest"), 82, (some "MultiLocation"), []⟩, ⟨(some "xcm"), 355, (some "Xcm<()>"), []⟩], 14, []⟩, ⟨"ExchangeAsset", [⟨(some "give"), 371, (some "MultiAssetFilter"), []⟩, ⟨(some "receive"), 358, (some "MultiAssets"), []⟩], 15, []⟩, ⟨"InitiateReserveWithdraw", [⟨(some "assets"), 371, (some "MultiAssetFilter"), []⟩, ⟨(some "reserve"), 82, (some "MultiLocation"), []⟩, ⟨(some "xcm"), 355, (some "Xcm<()>"), []⟩], 16, []⟩, ⟨"InitiateTeleport", [⟨(some "assets"), 371, (some "MultiAssetFilter"), []⟩, ⟨(some "dest"), 82, (some "MultiLocation"), []⟩, ⟨(some "xcm"), 355, (some "Xcm<()>"), []⟩], 17, []⟩, ⟨"QueryHolding", [⟨(some "query_id"), 11, (some "QueryId"), []⟩, ⟨(some "dest"), 82, (some "MultiLocation"), []⟩, ⟨(some "assets"), 371, (some "MultiAssetFilter"), []⟩, ⟨(some "max_response_weight"), 11, (some "u64"), []⟩], 18, []⟩, ⟨"BuyExecution", [⟨(some "fees"), 360, (some "MultiAsset"), []⟩, ⟨(some "weight_limit"), 374, (some "WeightLimit"), []⟩], 19, []⟩, ⟨"RefundSurplus", [], 20, []⟩, ⟨"SetErrorHandler", [⟨none, 355, (some "Xcm<RuntimeCall>"), []⟩], 21, []⟩, ⟨"SetAppendix", [⟨none, 355, (some "Xcm<RuntimeCall>"), []⟩], 22, []⟩, ⟨"ClearError", [], 23, []⟩, ⟨"ClaimAsset", [⟨(some "assets"), 358, (some "MultiAssets"), []⟩, ⟨(some "ticket"), 82, (some "MultiLocation"), []⟩], 24, []⟩, ⟨"Trap", [⟨none, 11, (some "u64"), []⟩], 25, []⟩, ⟨"SubscribeVersion", [⟨(some "query_id"), 11, (some "QueryId"), []⟩, ⟨(some "max_response_weight"), 11, (some "u64"), []⟩], 26, []⟩, ⟨"UnsubscribeVersion", [], 27, []⟩], []⟩,
   ⟨["xcm", "v2", "multiasset", "MultiAssets"], [], .composite [⟨none, 359, (some "Vec<MultiAsset>"), []⟩], []⟩,
   ⟨[], [], .sequence 360, []⟩,
   ⟨["xcm", "v2", "multiasset", "MultiAsset"], [], .composite [⟨(some "id"), 361, (some "AssetId"), []⟩, ⟨(some "fun"), 362, (some "Fungibility"), []⟩], []⟩,
   ⟨["xcm", "v2", "multiasset", "AssetId"], [], .variant [⟨"Concrete", [⟨none, 82, (some "MultiLocation"), []⟩], 0, []⟩, ⟨"Abstract", [⟨none, 14, (some "Vec<u8>"), []⟩], 1, []⟩], []⟩,
   ⟨["xcm", "v2", "multiasset", "Fungibility"], [], .variant [⟨"Fungible", [⟨none, 63, (some "u128"), []⟩], 0, []⟩, ⟨"NonFungible", [⟨none, 363, (some "AssetInstance"), []⟩], 1, []⟩], []⟩,
   ⟨["xcm", "v2", "multiasset", "AssetInstance"], [], .variant [⟨"Undefined", [], 0, []⟩, ⟨"Index", [⟨none, 63, (some "u128"), []⟩], 1, []⟩, ⟨"Array4", [⟨none, 18, (some "[u8; 4]"), []⟩], 2, []⟩, ⟨"Array8", [⟨none, 364, (some "[u8; 8]"), []⟩], 3, []⟩, ⟨"Array16", [⟨none, 48, (some "[u8; 16]"), []⟩], 4, []⟩, ⟨"Array32", [⟨none, 1, (some "[u8; 32]"), []⟩], 5, []⟩, ⟨"Blob", [⟨none, 14, (some "Vec<u8>"), []⟩], 6, []⟩], []⟩,
   ⟨[], [], .array 8 2, []⟩,
   ⟨["xcm", "v2", "Response"], [], .variant [⟨"Null", [], 0, []⟩, ⟨"Assets", [⟨none, 358, (some "MultiAssets"), []⟩], 1, []⟩, ⟨"ExecutionResult", [⟨none, 366, (some "Option<(u32, Error)>"), []⟩], 2, []⟩, ⟨"Version", [⟨none, 4, (some "super::Version"), []⟩], 3, []⟩], []⟩,
   ⟨["Option"], [("T", (some 367))], .variant [⟨"None", [], 0, []⟩, ⟨"Some", [⟨none, 367, none, []⟩], 1, []⟩], []⟩,
   ⟨[], [], .tuple [4, 368], []⟩,
   ⟨["xcm", "v2", "traits", "Error"], [], .variant [⟨"Overflow", [], 0, []⟩, ⟨"Unimplemented", [], 1, []⟩, ⟨"UntrustedReserveLocation", [], 2, []⟩, ⟨"UntrustedTeleportLocation", [], 3, []⟩, ⟨"MultiLocationFull", [], 4, []⟩, ⟨"MultiLocationNotInvertible", [], 5, []⟩, ⟨"BadOrigin", [], 6, []⟩, ⟨"InvalidLocation", [], 7, []⟩, ⟨"AssetNotFound", [], 8, []⟩, ⟨"FailedToTransactAsset", [], 9, []⟩, ⟨"NotWithdrawable", [], 10, []⟩, ⟨"LocationCannotHold", [], 11, []⟩, ⟨"ExceedsMaxMessageSize", [], 12, []⟩, ⟨"DestinationUnsupported", [], 13, []⟩, ⟨"Transport", [], 14, []⟩, ⟨"Unroutable", [], 15, []⟩, ⟨"UnknownClaim", [], 16, []⟩, ⟨"FailedToDecode", [], 17, []⟩, ⟨"MaxWeightInvalid", [], 18, []⟩, ⟨"NotHoldingFees", [], 19, []⟩, ⟨"TooExpensive", [], 20, []⟩, ⟨"Trap", [⟨none, 12, (some "u64"), []⟩], 21, []⟩, ⟨"UnhandledXcmVersion", [], 22, []⟩, ⟨"WeightLimitReached", [⟨none, 12, (some "Weight"), []⟩], 23, []⟩, ⟨"Barrier", [], 24, []⟩, ⟨"WeightNotComputable", [], 25, []⟩], []⟩,
   ⟨["xcm", "v2", "OriginKind"], [], .variant [⟨"Native", [], 0, []⟩, ⟨"SovereignAccount", [], 1, []⟩, ⟨"Superuser", [], 2, []⟩, ⟨"Xcm", [], 3, []⟩], []⟩,
   ⟨["xcm", "double_encoded", "DoubleEncoded"], [("T", none)], .composite [⟨(some "encoded"), 14, (some "Vec<u8>"), []⟩], []⟩,
   ⟨["xcm", "v2", "multiasset", "MultiAssetFilter"], [], .variant [⟨"Definite", [⟨none, 358, (some "MultiAssets"), []⟩], 0, []⟩, ⟨"Wild", [⟨none, 372, (some "WildMultiAsset"), []⟩], 1, []⟩], []⟩,
   ⟨["xcm", "v2", "multiasset", "WildMultiAsset"], [], .variant [⟨"All", [], 0, []⟩, ⟨"AllOf", [⟨(some "id"), 361, (some "AssetId"), []⟩, ⟨(some "fun"), 373, (some "WildFungibility"), []⟩], 1, []⟩], []⟩,
   ⟨["xcm", "v2", "multiasset", "WildFungibility"], [], .variant [⟨"Fungible", [], 0, []⟩, ⟨"NonFungible", [], 1, []⟩], []⟩,
   ⟨["xcm", "v2", "WeightLimit"], [], .variant [⟨"Unlimited", [], 0, []⟩, ⟨"Limited", [⟨none, 11, (some "u64"), []⟩], 1, []⟩], []⟩,
   ⟨["xcm", "v3", "Xcm"], [("Call", none)], .composite [⟨none, 376, (some "Vec<Instruction<Call>>"), []⟩], []⟩,
   ⟨[], [], .sequence 377, []⟩,
   ⟨["xcm", "v3", "Instruction"], [("Call", none)], .variant [⟨"WithdrawAsset", [⟨none, 378, (some "MultiAssets"), []⟩], 0, []⟩, ⟨"ReserveAssetDeposited", [⟨none, 378, (some "MultiAssets"), []⟩], 1, []⟩, ⟨"ReceiveTeleportedAsset", [⟨none, 378, (some "MultiAssets"), []⟩], 2, []⟩, ⟨"QueryResponse", [⟨(some "query_id"), 11, (some "QueryId"), []⟩, ⟨(some "response"), 383, (some "Response"), []⟩, ⟨(some "max_weight"), 10, (some "Weight"), []⟩, ⟨(some "querier"), 393, (some "Option<MultiLocation>"), []⟩], 3, []⟩, ⟨"TransferAsset", [⟨(some "assets"), 378, (some "MultiAssets"), []⟩, ⟨(some "beneficiary"), 56, (some "MultiLocation"), []⟩], 4, []⟩, ⟨"TransferReserveAsset", [⟨(some "assets"), 378, (some "MultiAssets"), []⟩, ⟨(some "dest"), 56, (some "MultiLocation"), []⟩, ⟨(some "xcm"), 375, (some "Xcm<()>"), []⟩], 5, []⟩, ⟨"Transact", [⟨(some "origin_kind"), 394, (some "OriginKind"), []⟩, ⟨(some "require_weight_at_most"), 10, (some "Weight"), []⟩, ⟨(some "call"), 370, (some "DoubleEncoded<Call>"), []⟩], 6, []⟩, ⟨"HrmpNewChannelOpenRequest", [⟨(some "sender"), 59, (some "u32"), []⟩, ⟨(some "max_message_size"), 59, (some "u32"), []⟩, ⟨(some "max_capacity"), 59, (some "u32"), []⟩], 7, []⟩, ⟨"HrmpChannelAccepted", [⟨(some "recipient"), 59, (some "u32"), []⟩], 8, []⟩, ⟨"HrmpChannelClosing", [⟨(some "initiator"), 59, (some "u32"), []⟩, ⟨(some "sender"), 59, (some "u32"), []⟩, ⟨(some "recipient"), 59, (some "u32"), []⟩], 9, []⟩, ⟨"ClearOrigin", [], 10, []⟩, ⟨"DescendOrigin", [⟨none, 57, (some "InteriorMultiLocation"), []⟩], 11, []⟩, ⟨"ReportError", [⟨none, 395, (some "QueryResponseInfo"), []⟩], 12, []⟩, ⟨"DepositAsset", [⟨(some "assets"), 396, (some "MultiAssetFilter"), []⟩, ⟨(some "beneficiary"), 56, (some "MultiLocation"), []⟩], 13, []⟩, ⟨"DepositReserveAsset", [⟨(some "assets"), 396, (some "MultiAssetFilter"), []⟩, ⟨(some "dest"), 56, (some "MultiLocation"), []⟩, ⟨(some "xcm"), 375, (some "Xcm<()>"), []⟩], 14, []⟩, ⟨"ExchangeAsset", [⟨(some "give"), 396, (some "MultiAssetFilter"), []⟩, ⟨(some "want"), 378, (some "MultiAssets"), []⟩, ⟨(some "maximal"), 8, (some "bool"), []⟩], 15, []⟩, ⟨"InitiateReserveWithdraw", [⟨(some "assets"), 396, (some "MultiAssetFilter"), []⟩, ⟨(some "reserve"), 56, (some "MultiLocation"), []⟩, ⟨(some "xcm"), 375, (some "Xcm<()>"), []⟩], 16, []⟩, ⟨"InitiateTeleport", [⟨(some "assets"), 396, (some "MultiAssetFilter"), []⟩, ⟨(some "dest"), 56, (some "MultiLocation"), []⟩, ⟨(some "xcm"), 375, (some "Xcm<()>"), []⟩], 17, []⟩, ⟨"ReportHolding", [⟨(some "response_info"), 395, (some "QueryResponseInfo"), []⟩, ⟨(some "assets"), 396, (some "MultiAssetFilter"), []⟩], 18, []⟩, ⟨"BuyExecution", [⟨(some "fees"), 380, (some "MultiAsset"), []⟩, ⟨(some "weight_limit"), 399, (some "WeightLimit"), []⟩], 19, []⟩, ⟨"RefundSurplus", [], 20, []⟩, ⟨"SetErrorHandler", [⟨none, 375, (some "Xcm<Call>"), []⟩], 21, []⟩, ⟨"SetAppendix", [⟨none, 375, (some "Xcm<Call>"), []⟩], 22, []⟩, ⟨"ClearError", [], 23, []⟩, ⟨"ClaimAsset", [⟨(some "assets"), 378, (some "MultiAssets"), []⟩, ⟨(some "ticket"), 56, (some "MultiLocation"), []⟩], 24, []⟩, ⟨"Trap", [⟨none, 11, (some "u64"), []⟩], 25, []⟩, ⟨"SubscribeVersion", [⟨(some "query_id"), 11, (some "QueryId"), []⟩, ⟨(some "max_response_weight"), 10, (some "Weight"), []⟩], 26, []⟩, ⟨"UnsubscribeVersion", [], 27, []⟩, ⟨"BurnAsset", [⟨none, 378, (some "MultiAssets"), []⟩], 28, []⟩, ⟨"ExpectAsset", [⟨none, 378, (some "MultiAssets"), []⟩], 29, []⟩, ⟨"ExpectOrigin", [⟨none, 393, (some "Option<MultiLocation>"), []⟩], 30, []⟩, ⟨"ExpectError", [⟨none, 384, (some "Option<(u32, Error)>"), []⟩], 31, []⟩, ⟨"ExpectTransactStatus", [⟨none, 391, (some "MaybeErrorCode"), []⟩], 32, []⟩, ⟨"QueryPallet", [⟨(some "module_name"), 14, (some "Vec<u8>"), []⟩, ⟨(some "response_info"), 395, (some "QueryResponseInfo"), []⟩], 33, []⟩, ⟨"ExpectPallet", [⟨(some "index"), 59, (some "u32"), []⟩, ⟨(some "name"), 14, (some "Vec<u8>"), []⟩, ⟨(some "module_name"), 14, (some "Vec<u8>"), []⟩, ⟨(some "crate_major"), 59, (some "u32"), []⟩, ⟨(some "min_crate_minor"), 59, (some "u32"), []⟩], 34, []⟩, ⟨"ReportTransactStatus", [⟨none, 395, (some "QueryResponseInfo"), []⟩], 35, []⟩, ⟨"ClearTransactStatus", [], 36, []⟩, ⟨"UniversalOrigin", [⟨none, 58, (some "Junction"), []⟩], 37, []⟩, ⟨"ExportMessage", [⟨(some "network"), 61, (some "NetworkId"), []⟩, ⟨(some "destination"), 57, (some "InteriorMultiLocation"), []⟩, ⟨(some "xcm"), 375, (some "Xcm<()>"), []⟩], 38, []⟩, ⟨"LockAsset", [⟨(some "asset"), 380, (some "MultiAsset"), []⟩, ⟨(some "unlocker"), 56, (some "MultiLocation"), []⟩], 39, []⟩, ⟨"UnlockAsset", [⟨(some "asset"), 380, (some "MultiAsset"), []⟩, ⟨(some "target"), 56, (some "MultiLocation"), []⟩], 40, []⟩, ⟨"NoteUnlockable", [⟨(some "asset"), 380, (some "MultiAsset"), []⟩, ⟨(some "owner"), 56, (some "MultiLocation"), []⟩], 41, []⟩, ⟨"RequestUnlock", [⟨(some "asset"), 380, (some "MultiAsset"), []⟩, ⟨(some "locker"), 56, (some "MultiLocation"), []⟩], 42, []⟩, ⟨"SetFeesMode", [⟨(some "jit_withdraw"), 8, (some "bool"), []⟩], 43, []⟩, ⟨"SetTopic", [⟨none, 1, (some "[u8; 32]"), []⟩], 44, []⟩, ⟨"ClearTopic", [], 45, []⟩, ⟨"AliasOrigin", [⟨none, 56, (some "MultiLocation"), []⟩], 46, []⟩, ⟨"UnpaidExecution", [⟨(some "weight_limit"), 399, (some "WeightLimit"), []⟩, ⟨(some "check_origin"), 393, (some "Option<MultiLocation>"), []⟩], 47, []⟩], []⟩,
   ⟨["xcm", "v3", "multiasset", "MultiAssets"], [], .composite [⟨none, 379, (some "Vec<MultiAsset>"), []⟩], []⟩,
   ⟨[], [], .sequence 380, []⟩,
   ⟨["xcm", "v3", "multiasset", "MultiAsset"], [], .composite [⟨(some "id"), 66, (some "AssetId"), []⟩, ⟨(some "fun"), 381, (some "Fungibility"), []⟩], []⟩,
   ⟨["xcm", "v3", "multiasset", "Fungibility"], [], .variant [⟨"Fungible", [⟨none, 63, (some "u128"), []⟩], 0, []⟩, ⟨"NonFungible", [⟨none, 382, (some "AssetInstance"), []⟩], 1, []⟩], []⟩,
   ⟨["xcm", "v3", "multiasset", "AssetInstance"], [], .variant [⟨"Undefined", [], 0, []⟩, ⟨"Index", [⟨none, 63, (some "u128"), []⟩], 1, []⟩, ⟨"Array4", [⟨none, 18, (some "[u8; 4]"), []⟩], 2, []⟩, ⟨"Array8", [⟨none, 364, (some "[u8; 8]"), []⟩], 3, []⟩, ⟨"Array16", [⟨none, 48, (some "[u8; 16]"), []⟩], 4, []⟩, ⟨"Array32", [⟨none, 1, (some "[u8; 32]"), []⟩], 5, []⟩], []⟩,
   ⟨["xcm", "v3", "Response"], [], .variant [⟨"Null", [], 0, []⟩, ⟨"Assets", [⟨none, 378, (some "MultiAssets"), []⟩], 1, []⟩, ⟨"ExecutionResult", [⟨none, 384, (some "Option<(u32, Error)>"), []⟩], 2, []⟩, ⟨"Version", [⟨none, 4, (some "super::Version"), []⟩], 3, []⟩, ⟨"PalletsInfo", [⟨none, 387, (some "BoundedVec<PalletInfo, MaxPalletsInfo>"), []⟩], 4, []⟩, ⟨"DispatchResult", [⟨none, 391, (some "MaybeErrorCode"), []⟩], 5, []⟩], []⟩]

/-- Types 384 to 415 of `for_tests/polkadot1003003_v15`. -/
def types12 : List Typ :=
  [⟨["Option"], [("T", (some 385))], .variant [⟨"None", [], 0, []⟩, ⟨"Some", [⟨none, 385, none, []⟩], 1, []⟩], []⟩,
   ⟨[], [], .tuple [4, 386], []⟩,
   ⟨["xcm", "v3", "traits", "Error"], [], .variant [⟨"Overflow", [], 0, []⟩, ⟨"Unimplemented", [], 1, []⟩, ⟨"UntrustedReserveLocation", [], 2, []⟩, ⟨"UntrustedTeleportLocation", [], 3, []⟩, ⟨"LocationFull", [], 4, []⟩, ⟨"LocationNotInvertible", [], 5, []⟩, ⟨"BadOrigin", [], 6, []⟩, ⟨"InvalidLocation", [], 7, []⟩, ⟨"AssetNotFound", [], 8, []⟩, ⟨"FailedToTransactAsset", [], 9, []⟩, ⟨"NotWithdrawable", [], 10, []⟩, ⟨"LocationCannotHold", [], 11, []⟩, ⟨"ExceedsMaxMessageSize", [], 12, []⟩, ⟨"DestinationUnsupported", [], 13, []⟩, ⟨"Transport", [], 14, []⟩, ⟨"Unroutable", [], 15, []⟩, ⟨"UnknownClaim", [], 16, []⟩, ⟨"FailedToDecode", [], 17, []⟩, ⟨"MaxWeightInvalid", [], 18, []⟩, ⟨"NotHoldingFees", [], 19, []⟩, ⟨"TooExpensive", [], 20, []⟩, ⟨"Trap", [⟨none, 12, (some "u64"), []⟩], 21, []⟩, ⟨"ExpectationFalse", [], 22, []⟩, ⟨"PalletNotFound", [], 23, []⟩, ⟨"NameMismatch", [], 24, []⟩, ⟨"VersionIncompatible", [], 25, []⟩, ⟨"HoldingWouldOverflow", [], 26, []⟩, ⟨"ExportError", [], 27, []⟩, ⟨"ReanchorFailed", [], 28, []⟩, ⟨"NoDeal", [], 29, []⟩, ⟨"FeesNotMet", [], 30, []⟩, ⟨"LockError", [], 31, []⟩, ⟨"NoPermission", [], 32, []⟩, ⟨"Unanchored", [], 33, []⟩, ⟨"NotDepositable", [], 34, []⟩, ⟨"UnhandledXcmVersion", [], 35, []⟩, ⟨"WeightLimitReached", [⟨none, 10, (some "Weight"), []⟩], 36, []⟩, ⟨"Barrier", [], 37, []⟩, ⟨"WeightNotComputable", [], 38, []⟩, ⟨"ExceedsStackLimit", [], 39, []⟩], []⟩,
   ⟨["bounded_collections", "bounded_vec", "BoundedVec"], [("T", (some 388)), ("S", none)], .composite [⟨none, 390, (some "Vec<T>"), []⟩], []⟩,
   ⟨["xcm", "v3", "PalletInfo"], [], .composite [⟨(some "index"), 59, (some "u32"), []⟩, ⟨(some "name"), 389, (some "BoundedVec<u8, MaxPalletNameLen>"), []⟩, ⟨(some "module_name"), 389, (some "BoundedVec<u8, MaxPalletNameLen>"), []⟩, ⟨(some "major"), 59, (some "u32"), []⟩, ⟨(some "minor"), 59, (some "u32"), []⟩, ⟨(some "patch"), 59, (some "u32"), []⟩], []⟩,
   ⟨["bounded_collections", "bounded_vec", "BoundedVec"], [("T", (some 2)), ("S", none)], .composite [⟨none, 14, (some "Vec<T>"), []⟩], []⟩,
   ⟨[], [], .sequence 388, []⟩,
   ⟨["xcm", "v3", "MaybeErrorCode"], [], .variant [⟨"Success", [], 0, []⟩, ⟨"Error", [⟨none, 392, (some "BoundedVec<u8, MaxDispatchErrorLen>"), []⟩], 1, []⟩, ⟨"TruncatedError", [⟨none, 392, (some "BoundedVec<u8, MaxDispatchErrorLen>"), []⟩], 2, []⟩], []⟩,
   ⟨["bounded_collections", "bounded_vec", "BoundedVec"], [("T", (some 2)), ("S", none)], .composite [⟨none, 14, (some "Vec<T>"), []⟩], []⟩,
   ⟨["Option"], [("T", (some 56))], .variant [⟨"None", [], 0, []⟩, ⟨"Some", [⟨none, 56, none, []⟩], 1, []⟩], []⟩,
   ⟨["xcm", "v3", "OriginKind"], [], .variant [⟨"Native", [], 0, []⟩, ⟨"SovereignAccount", [], 1, []⟩, ⟨"Superuser", [], 2, []⟩, ⟨"Xcm", [], 3, []⟩], []⟩,
   ⟨["xcm", "v3", "QueryResponseInfo"], [], .composite [⟨(some "destination"), 56, (some "MultiLocation"), []⟩, ⟨(some "query_id"), 11, (some "QueryId"), []⟩, ⟨(some "max_weight"), 10, (some "Weight"), []⟩], []⟩,
   ⟨["xcm", "v3", "multiasset", "MultiAssetFilter"], [], .variant [⟨"Definite", [⟨none, 378, (some "MultiAssets"), []⟩], 0, []⟩, ⟨"Wild", [⟨none, 397, (some "WildMultiAsset"), []⟩], 1, []⟩], []⟩,
   ⟨["xcm", "v3", "multiasset", "WildMultiAsset"], [], .variant [⟨"All", [], 0, []⟩, ⟨"AllOf", [⟨(some "id"), 66, (some "AssetId"), []⟩, ⟨(some "fun"), 398, (some "WildFungibility"), []⟩], 1, []⟩, ⟨"AllCounted", [⟨none, 59, (some "u32"), []⟩], 2, []⟩, ⟨"AllOfCounted", [⟨(some "id"), 66, (some "AssetId"), []⟩, ⟨(some "fun"), 398, (some "WildFungibility"), []⟩, ⟨(some "count"), 59, (some "u32"), []⟩], 3, []⟩], []⟩,
   ⟨["xcm", "v3", "multiasset", "WildFungibility"], [], .variant [⟨"Fungible", [], 0, []⟩, ⟨"NonFungible", [], 1, []⟩], []⟩,
   ⟨["xcm", "v3", "WeightLimit"], [], .variant [⟨"Unlimited", [], 0, []⟩, ⟨"Limited", [⟨none, 10, (some "Weight"), []⟩], 1, []⟩], []⟩,
   ⟨["staging_xcm", "v4", "Xcm"], [("Call", none)], .composite [⟨none, 401, (some "Vec<Instruction<Call>>"), []⟩], []⟩,
   ⟨[], [], .sequence 402, []⟩,
   ⟨["staging_xcm", "v4", "Instruction"], [("Call", none)], .variant [⟨"WithdrawAsset", [⟨none, 403, (some "Assets"), []⟩], 0, []⟩, ⟨"ReserveAssetDeposited", [⟨none, 403, (some "Assets"), []⟩], 1, []⟩, ⟨"ReceiveTeleportedAsset", [⟨none, 403, (some "Assets"), []⟩], 2, []⟩, ⟨"QueryResponse", [⟨(some "query_id"), 11, (some "QueryId"), []⟩, ⟨(some "response"), 408, (some "Response"), []⟩, ⟨(some "max_weight"), 10, (some "Weight"), []⟩, ⟨(some "querier"), 413, (some "Option<Location>"), []⟩], 3, []⟩, ⟨"TransferAsset", [⟨(some "assets"), 403, (some "Assets"), []⟩, ⟨(some "beneficiary"), 67, (some "Location"), []⟩], 4, []⟩, ⟨"TransferReserveAsset", [⟨(some "assets"), 403, (some "Assets"), []⟩, ⟨(some "dest"), 67, (some "Location"), []⟩, ⟨(some "xcm"), 400, (some "Xcm<()>"), []⟩], 5, []⟩, ⟨"Transact", [⟨(some "origin_kind"), 394, (some "OriginKind"), []⟩, ⟨(some "require_weight_at_most"), 10, (some "Weight"), []⟩, ⟨(some "call"), 370, (some "DoubleEncoded<Call>"), []⟩], 6, []⟩, ⟨"HrmpNewChannelOpenRequest", [⟨(some "sender"), 59, (some "u32"), []⟩, ⟨(some "max_message_size"), 59, (some "u32"), []⟩, ⟨(some "max_capacity"), 59, (some "u32"), []⟩], 7, []⟩, ⟨"HrmpChannelAccepted", [⟨(some "recipient"), 59, (some "u32"), []⟩], 8, []⟩, ⟨"HrmpChannelClosing", [⟨(some "initiator"), 59, (some "u32"), []⟩, ⟨(some "sender"), 59, (some "u32"), []⟩, ⟨(some "recipient"), 59, (some "u32"), []⟩], 9, []⟩, ⟨"ClearOrigin", [], 10, []⟩, ⟨"DescendOrigin", [⟨none, 68, (some "InteriorLocation"), []⟩], 11, []⟩, ⟨"ReportError", [⟨none, 414, (some "QueryResponseInfo"), []⟩], 12, []⟩, ⟨"DepositAsset", [⟨(some "assets"), 415, (some "AssetFilter"), []⟩, ⟨(some "beneficiary"), 67, (some "Location"), []⟩], 13, []⟩, ⟨"DepositReserveAsset", [⟨(some "assets"), 415, (some "AssetFilter"), []⟩, ⟨(some "dest"), 67, (some "Location"), []⟩, ⟨(some "xcm"), 400, (some "Xcm<()>"), []⟩], 14, []⟩, ⟨"ExchangeAsset", [⟨(some "give"), 415, (some "AssetFilter"), []⟩, ⟨(some "want"), 403, (some "Assets"), []⟩, ⟨(some "maximal"), 8, (some "bool"), []⟩], 15, []⟩, ⟨"InitiateReserveWithdraw", [⟨(some "assets"), 415, (some "AssetFilter"), []⟩, ⟨(some "reserve"), 67, (some "Location"), []⟩, ⟨(some "xcm"), 400, (some "Xcm<()>"), []⟩], 16, []⟩, ⟨"InitiateTeleport", [⟨(some "assets"), 415, (some "AssetFilter"), []⟩, ⟨(some "dest"), 67, (some "Location"), []⟩, ⟨(some "xcm"), 400, (some "Xcm<()>"), []⟩], 17, []⟩, ⟨"ReportHolding", [⟨(some "response_info"), 414, (some "QueryResponseInfo"), []⟩, ⟨(some "assets"), 415, (some "AssetFilter"), []⟩], 18, []⟩, ⟨"BuyExecution", [⟨(some "fees"), 405, (some "Asset"), []⟩, ⟨(some "weight_limit"), 399, (some "WeightLimit"), []⟩], 19, []⟩, ⟨"RefundSurplus", [], 20, []⟩, ⟨"SetErrorHandler", [⟨none, 400, (some "Xcm<Call>"), []⟩], 21, []⟩, ⟨"SetAppendix", [⟨none, 400, (some "Xcm<Call>"), []⟩], 22, []⟩, ⟨"ClearError", [], 23, []⟩, ⟨"ClaimAsset", [⟨(some "assets"), 403, (some "Assets"), []⟩, ⟨(some "ticket"), 67, (some "Location"), []⟩], 24, []⟩, ⟨"Trap", [⟨none, 11, (some "u64"), []⟩], 25, []⟩, ⟨"SubscribeVersion", [⟨(some "query_id"), 11, (some "QueryId"), []⟩, ⟨(some "max_response_weight"), 10, (some "Weight"), []⟩], 26, []⟩, ⟨"UnsubscribeVersion", [], 27, []⟩, ⟨"BurnAsset", [⟨none, 403, (some "Assets"), []⟩], 28, []⟩, ⟨"ExpectAsset", [⟨none, 403, (some "Assets"), []⟩], 29, []⟩, ⟨"ExpectOrigin", [⟨none, 413, (some "Option<Location>"), []⟩], 30, []⟩, ⟨"ExpectError", [⟨none, 384, (some "Option<(u32, Error)>"), []⟩], 31, []⟩, ⟨"ExpectTransactStatus", [⟨none, 391, (some "MaybeErrorCode"), []⟩], 32, []⟩, ⟨"QueryPallet", [⟨(some "module_name"), 14, (some "Vec<u8>"), []⟩, ⟨(some "response_info"), 414, (some "QueryResponseInfo"), []⟩], 33, []⟩, ⟨"ExpectPallet", [⟨(some "index"), 59, (some "u32"), []⟩, ⟨(some "name"), 14, (some "Vec<u8>"), []⟩, ⟨(some "module_name"), 14, (some "Vec<u8>"), []⟩, ⟨(some "crate_major"), 59, (some "u32"), []⟩, ⟨(some "min_crate_minor"), 59, (some "u32"), []⟩], 34, []⟩, ⟨"ReportTransactStatus", [⟨none, 414, (some "QueryResponseInfo"), []⟩], 35, []⟩, ⟨"ClearTransactStatus", [], 36, []⟩, ⟨"UniversalOrigin", [⟨none, 70, (some "Junction"), []⟩], 37, []⟩, ⟨"ExportMessage", [⟨(some "network"), 72, (some "NetworkId"), []⟩, ⟨(some "destination"), 68, (some "InteriorLocation"), []⟩, ⟨(some "xcm"), 400, (some "Xcm<()>"), []⟩], 38, []⟩, ⟨"LockAsset", [⟨(some "asset"), 405, (some "Asset"), []⟩, ⟨(some "unlocker"), 67, (some "Location"), []⟩], 39, []⟩, ⟨"UnlockAsset", [⟨(some "asset"), 405, (some "Asset"), []⟩, ⟨(some "target"), 67, (some "Location"), []⟩], 40, []⟩, ⟨"NoteUnlockable", [⟨(some "asset"), 405, (some "Asset"), []⟩, ⟨(some "owner"), 67, (some "Location"), []⟩], 41, []⟩, ⟨"RequestUnlock", [⟨(some "asset"), 405, (some "Asset"), []⟩, ⟨(some "locker"), 67, (some "Location"), []⟩], 42, []⟩, ⟨"SetFeesMode", [⟨(some "jit_withdraw"), 8, (some "bool"), []⟩], 43, []⟩, ⟨"SetTopic", [⟨none, 1, (some "[u8; 32]"), []⟩], 44, []⟩, ⟨"ClearTopic", [], 45, []⟩, ⟨"AliasOrigin", [⟨none, 67, (some "Location"), []⟩], 46, []⟩, ⟨"UnpaidExecution", [⟨(some "weight_limit"), 399, (some "WeightLimit"), []⟩, ⟨(some "check_origin"), 413, (some "Option<Location>"), []⟩], 47, []⟩], []⟩,
   ⟨["staging_xcm", "v4", "asset", "Assets"], [], .composite [⟨none, 404, (some "Vec<Asset>"), []⟩], []⟩,
   ⟨[], [], .sequence 405, []⟩,
   ⟨["staging_xcm", "v4", "asset", "Asset"], [], .composite [⟨(some "id"), 80, (some "AssetId"), []⟩, ⟨(some "fun"), 406, (some "Fungibility"), []⟩], []⟩,
   ⟨["staging_xcm", "v4", "asset", "Fungibility"], [], .variant [⟨"Fungible", [⟨none, 63, (some "u128"), []⟩], 0, []⟩, ⟨"NonFungible", [⟨none, 407, (some "AssetInstance"), []⟩], 1, []⟩], []⟩,
   ⟨["staging_xcm", "v4", "asset", "AssetInstance"], [], .variant [⟨"Undefined", [], 0, []⟩, ⟨"Index", [⟨none, 63, (some "u128"), []⟩], 1, []⟩, ⟨"Array4", [⟨none, 18, (some "[u8; 4]"), []⟩], 2, []⟩, ⟨"Array8", [⟨none, 364, (some "[u8; 8]"), []⟩], 3, []⟩, ⟨"Array16", [⟨none, 48, (some "[u8; 16]"), []⟩], 4, []⟩, ⟨"Array32", [⟨none, 1, (some "[u8; 32]"), []⟩], 5, []⟩], []⟩,
   ⟨["staging_xcm", "v4", "Response"], [], .variant [⟨"Null", [], 0, []⟩, ⟨"Assets", [⟨none, 403, (some "Assets"), []⟩], 1, []⟩, ⟨"ExecutionResult", [⟨none, 384, (some "Option<(u32, Error)>"), []⟩], 2, []⟩, ⟨"Version", [⟨none, 4, (some "super::Version"), []⟩], 3, []⟩, ⟨"PalletsInfo", [⟨none, 409, (some "BoundedVec<PalletInfo, MaxPalletsInfo>"), []⟩], 4, []⟩, ⟨"DispatchResult", [⟨none, 391, (some "MaybeErrorCode"), []⟩], 5, []⟩], []⟩,
   ⟨["bounded_collections", "bounded_vec", "BoundedVec"], [("T", (some 410)), ("S", none)], .composite [⟨none, 412, (some "Vec<T>"), []⟩], []⟩,
   ⟨["staging_xcm", "v4", "PalletInfo"], [], .composite [⟨(some "index"), 59, (some "u32"), []⟩, ⟨(some "name"), 411, (some "BoundedVec<u8, MaxPalletNameLen>"), []⟩, ⟨(some "module_name"), 411, (some "BoundedVec<u8, MaxPalletNameLen>"), []⟩, ⟨(some "major"), 59, (some "u32"), []⟩, ⟨(some "minor"), 59, (some "u32"), []⟩, ⟨(some "patch"), 59, (some "u32"), []⟩], []⟩,
   ⟨["bounded_collections", "bounded_vec", "BoundedVec"], [("T", (some 2)), ("S", none)], .composite [⟨none, 14, (some "Vec<T>"), []⟩], []⟩,
   ⟨[], [], .sequence 410, []⟩,
   ⟨["Option"], [("T", (some 67))], .variant [⟨"None", [], 0, []⟩, ⟨"Some", [⟨none, 67, none, []⟩], 1, []⟩], []⟩,
   ⟨["staging_xcm", "v4", "QueryResponseInfo"], [], .composite [⟨(some "destination"), 67, (some "Location"), []⟩, ⟨(some "query_id"), 11, (some "QueryId"), []⟩, ⟨(some "max_weight"), 10, (some "Weight"), []⟩], []⟩,
   ⟨["staging_xcm", "v4", "asset", "AssetFilter"], [], .variant [⟨"Definite", [⟨none, 403, (some "Assets"), []⟩], 0, []⟩, ⟨"Wild", [⟨none, 416, (some "WildAsset"), []⟩], 1, []⟩], []⟩]

/-- Types 416 to 447 of `for_tests/polkadot1003003_v15`. -/
def types13 : List Typ :=
  [⟨["staging_xcm", "v4", "asset", "WildAsset"], [], .variant [⟨"All", [], 0, []⟩, ⟨"AllOf", [⟨(some "id"), 80, (some "AssetId"), []⟩, ⟨(some "fun"), 417, (some "WildFungibility"), []⟩], 1, []⟩, ⟨"AllCounted", [⟨none, 59, (some "u32"), []⟩], 2, []⟩, ⟨"AllOfCounted", [⟨(some "id"), 80, (some "AssetId"), []⟩, ⟨(some "fun"), 417, (some "WildFungibility"), []⟩, ⟨(some "count"), 59, (some "u32"), []⟩], 3, []⟩], []⟩,
   ⟨["staging_xcm", "v4", "asset", "WildFungibility"], [], .variant [⟨"Fungible", [], 0, []⟩, ⟨"NonFungible", [], 1, []⟩], []⟩,
   ⟨["xcm", "VersionedAssets"], [], .variant [⟨"V2", [⟨none, 358, (some "v2::MultiAssets"), []⟩], 1, []⟩, ⟨"V3", [⟨none, 378, (some "v3::MultiAssets"), []⟩], 3, []⟩, ⟨"V4", [⟨none, 403, (some "v4::Assets"), []⟩], 4, []⟩], []⟩,
   ⟨["xcm", "VersionedXcm"], [("RuntimeCall", none)], .variant [⟨"V2", [⟨none, 420, (some "v2::Xcm<RuntimeCall>"), []⟩], 2, []⟩, ⟨"V3", [⟨none, 424, (some "v3::Xcm<RuntimeCall>"), []⟩], 3, []⟩, ⟨"V4", [⟨none, 427, (some "v4::Xcm<RuntimeCall>"), []⟩], 4, []⟩], []⟩,
   ⟨["xcm", "v2", "Xcm"], [("RuntimeCall", none)], .composite [⟨none, 421, (some "Vec<Instruction<RuntimeCall>>"), []⟩], []⟩,
   ⟨[], [], .sequence 422, []⟩,
   ⟨["xcm", "v2", "Instruction"], [("RuntimeCall", none)], .variant [⟨"WithdrawAsset", [⟨none, 358, (some "MultiAssets"), []⟩], 0, []⟩, ⟨"ReserveAssetDeposited", [⟨none, 358, (some "MultiAssets"), []⟩], 1, []⟩, ⟨"ReceiveTeleportedAsset", [⟨none, 358, (some "MultiAssets"), []⟩], 2, []⟩, ⟨"QueryResponse", [⟨(some "query_id"), 11, (some "QueryId"), []⟩, ⟨(some "response"), 365, (some "Response"), []⟩, ⟨(some "max_weight"), 11, (some "u64"), []⟩], 3, []⟩, ⟨"TransferAsset", [⟨(some "assets"), 358, (some "MultiAssets"), []⟩, ⟨(some "beneficiary"), 82, (some "MultiLocation"), []⟩], 4, []⟩, ⟨"TransferReserveAsset", [⟨(some "assets"), 358, (some "MultiAssets"), []⟩, ⟨(some "dest"), 82, (some "MultiLocation"), []⟩, ⟨(some "xcm"), 355, (some "Xcm<()>"), []⟩], 5, []⟩, ⟨"Transact", [⟨(some "origin_type"), 369, (some "OriginKind"), []⟩, ⟨(some "require_weight_at_most"), 11, (some "u64"), []⟩, ⟨(some "call"), 423, (some "DoubleEncoded<RuntimeCall>"), []⟩], 6, []⟩, ⟨"HrmpNewChannelOpenRequest", [⟨(some "sender"), 59, (some "u32"), []⟩, ⟨(some "max_message_size"), 59, (some "u32"), []⟩, ⟨(some "max_capacity"), 59, (some "u32"), []⟩], 7, []⟩, ⟨"HrmpChannelAccepted", [⟨(some "recipient"), 59, (some "u32"), []⟩], 8, []⟩, ⟨"HrmpChannelClosing", [⟨(some "initiator"), 59, (some "u32"), []⟩, ⟨(some "sender"), 59, (some "u32"), []⟩, ⟨(some "recipient"), 59, (some "u32"), []⟩], 9, []⟩, ⟨"ClearOrigin", [], 10, []⟩, ⟨"DescendOrigin", [⟨none, 83, (some "InteriorMultiLocation"), []⟩], 11, []⟩, ⟨"ReportError", [⟨(some "query_id"), 11, (some "QueryId"), []⟩, ⟨(some "dest"), 82, (some "MultiLocation"), []⟩, ⟨(some "max_response_weight"), 11, (some "u64"), []⟩], 12, []⟩, ⟨"DepositAsset", [⟨(some "assets"), 371, (some "MultiAssetFilter"), []⟩, ⟨(some "max_assets"), 59, (some "u32"), []⟩, ⟨(some "beneficiary"), 82, (some "MultiLocation"), []⟩], 13, []⟩, ⟨"DepositReserveAsset", [⟨(some "assets"), 371, (some "MultiAssetFilter"), []⟩, ⟨(some "max_assets"), 59, (some "u32"), []⟩, ⟨(some "dest"), 82, (some "MultiLocation"), []⟩, ⟨(some "xcm"), 355, (some "Xcm<()>"), []⟩], 14, []⟩, ⟨"ExchangeAsset", [⟨(some "give"), 371, (some "MultiAssetFilter"), []⟩, ⟨(some "receive"), 358, (some "MultiAssets"), []⟩], 15, []⟩, ⟨"InitiateReserveWithdraw", [⟨(some "assets"), 371, (some "MultiAssetFilter"), []⟩, ⟨(some "reserve"), 82, (some "MultiLocation"), []⟩, ⟨(some "xcm"), 355, (some "Xcm<()>"), []⟩], 16, []⟩, ⟨"InitiateTeleport", [⟨(some "assets"), 371, (some "MultiAssetFilter"), []⟩, ⟨(some "dest"), 82, (some "MultiLocation"), []⟩, ⟨(some "xcm"), 355, (some "Xcm<()>"), []⟩], 17, []⟩, ⟨"QueryHolding", [⟨(some "query_id"), 11, (some "QueryId"), []⟩, ⟨(some "dest"), 82, (some "MultiLocation"), []⟩, ⟨(some "assets"), 371, (some "MultiAssetFilter"), []⟩, ⟨(some "max_response_weight"), 11, (some "u64"), []⟩], 18, []⟩, ⟨"BuyExecution", [⟨(some "fees"), 360, (some "MultiAsset"), []⟩, ⟨(some "weight_limit"), 374, (some "WeightLimit"), []⟩], 19, []⟩, ⟨"RefundSurplus", [], 20, []⟩, ⟨"SetErrorHandler", [⟨none, 420, (some "Xcm<RuntimeCall>"), []⟩], 21, []⟩, ⟨"SetAppendix", [⟨none, 420, (some "Xcm<RuntimeCall>"), []⟩], 22, []⟩, ⟨"ClearError", [], 23, []⟩, ⟨"ClaimAsset", [⟨(some "assets"), 358, (some "MultiAssets"), []⟩, ⟨(some "ticket"), 82, (some "MultiLocation"), []⟩], 24, []⟩, ⟨"Trap", [⟨none, 11, (some "u64"), []⟩], 25, []⟩, ⟨"SubscribeVersion", [⟨(some "query_id"), 11, (some "QueryId"), []⟩, ⟨(some "max_response_weight"), 11, (some "u64"), []⟩], 26, []⟩, ⟨"UnsubscribeVersion", [], 27, []⟩], []⟩,
   ⟨["xcm", "double_encoded", "DoubleEncoded"], [("T", none)], .composite [⟨(some "encoded"), 14, (some "Vec<u8>"), []⟩], []⟩,
   ⟨["xcm", "v3", "Xcm"], [("Call", none)], .composite [⟨none, 425, (some "Vec<Instruction<Call>>"), []⟩], []⟩,
   ⟨[], [], .sequence 426, []⟩,
   ⟨["xcm", "v3", "Instruction"], [("Call", none)], .variant [⟨"WithdrawAsset", [⟨none, 378, (some "MultiAssets"), []⟩], 0, []⟩, ⟨"ReserveAssetDeposited", [⟨none, 378, (some "MultiAssets"), []⟩], 1, []⟩, ⟨"ReceiveTeleportedAsset", [⟨none, 378, (some "MultiAssets"), []⟩], 2, []⟩, ⟨"QueryResponse", [⟨(some "query_id"), 11, (some "QueryId"), []⟩, ⟨(some "response"), 383, (some "Response"), []⟩, ⟨(some "max_weight"), 10, (some "Weight"), []⟩, ⟨(some "querier"), 393, (some "Option<MultiLocation>"), []⟩], 3, []⟩, ⟨"TransferAsset", [⟨(some "assets"), 378, (some "MultiAssets"), []⟩, ⟨(some "beneficiary"), 56, (some "MultiLocation"), []⟩], 4, []⟩, ⟨"TransferReserveAsset", [⟨(some "assets"), 378, (some "MultiAssets"), []⟩, ⟨(some "dest"), 56, (some "MultiLocation"), []⟩, ⟨(some "xcm"), 375, (some "Xcm<()>"), []⟩], 5, []⟩, ⟨"Transact", [⟨(some "origin_kind"), 394, (some "OriginKind"), []⟩, ⟨(some "require_weight_at_most"), 10, (some "Weight"), []⟩, ⟨(some "call"), 423, (some "DoubleEncoded<Call>"), []⟩], 6, []⟩, ⟨"HrmpNewChannelOpenRequest", [⟨(some "sender"), 59, (some "u32"), []⟩, ⟨(some "max_message_size"), 59, (some "u32"), []⟩, ⟨(some "max_capacity"), 59, (some "u32"), []⟩], 7, []⟩, ⟨"HrmpChannelAccepted", [⟨(some "recipient"), 59, (some "u32"), []⟩], 8, []⟩, ⟨"HrmpChannelClosing", [⟨(some "initiator"), 59, (some "u32"), []⟩, ⟨(some "sender"), 59, (some "u32"), []⟩, ⟨(some "recipient"), 59, (some "u32"), []⟩], 9, []⟩, ⟨"ClearOrigin", [], 10, []⟩, ⟨"DescendOrigin", [⟨none, 57, (some "InteriorMultiLocation"), []⟩], 11, []⟩, ⟨"ReportError", [⟨none, 395, (some "QueryResponseInfo"), []⟩], 12, []⟩, ⟨"DepositAsset", [⟨(some "assets"), 396, (some "MultiAssetFilter"), []⟩, ⟨(some "beneficiary"), 56, (some "MultiLocation"), []⟩], 13, []⟩, ⟨"DepositReserveAsset", [⟨(some "assets"), 396, (some "MultiAssetFilter"), []⟩, ⟨(some "dest"), 56, (some "MultiLocation"), []⟩, ⟨(some "xcm"), 375, (some "Xcm<()>"), []⟩], 14, []⟩, ⟨"ExchangeAsset", [⟨(some "give"), 396, (some "MultiAssetFilter"), []⟩, ⟨(some "want"), 378, (some "MultiAssets"), []⟩, ⟨(some "maximal"), 8, (some "bool"), []⟩], 15, []⟩, ⟨"InitiateReserveWithdraw", [⟨(some "assets"), 396, (some "MultiAssetFilter"), []⟩, ⟨(some "reserve"), 56, (some "MultiLocation"), []⟩, ⟨(some "xcm"), 375, (some "Xcm<()>"), []⟩], 16, []⟩, ⟨"InitiateTeleport", [⟨(some "assets"), 396, (some "MultiAssetFilter"), []⟩, ⟨(some "dest"), 56, (some "MultiLocation"), []⟩, ⟨(some "xcm"), 375, (some "Xcm<()>"), []⟩], 17, []⟩, ⟨"ReportHolding", [⟨(some "response_info"), 395, (some "QueryResponseInfo"), []⟩, ⟨(some "assets"), 396, (some "MultiAssetFilter"), []⟩], 18, []⟩, ⟨"BuyExecution", [⟨(some "fees"), 380, (some "MultiAsset"), []⟩, ⟨(some "weight_limit"), 399, (some "WeightLimit"), []⟩], 19, []⟩, ⟨"RefundSurplus", [], 20, []⟩, ⟨"SetErrorHandler", [⟨none, 424, (some "Xcm<Call>"), []⟩], 21, []⟩, ⟨"SetAppendix", [⟨none, 424, (some "Xcm<Call>"), []⟩], 22, []⟩, ⟨"ClearError", [], 23, []⟩, ⟨"ClaimAsset", [⟨(some "assets"), 378, (some "MultiAssets"), []⟩, ⟨(some "ticket"), 56, (some "MultiLocation"), []⟩], 24, []⟩, ⟨"Trap", [⟨none, 11, (some "u64"), []⟩], 25, []⟩, ⟨"SubscribeVersion", [⟨(some "query_id"), 11, (some "QueryId"), []⟩, ⟨(some "max_response_weight"), 10, (some "Weight"), []⟩], 26, []⟩, ⟨"UnsubscribeVersion", [], 27, []⟩, ⟨"BurnAsset", [⟨none, 378, (some "MultiAssets"), []⟩], 28, []⟩, ⟨"ExpectAsset", [⟨none, 378, (some "MultiAssets"), []⟩], 29, []⟩, ⟨"ExpectOrigin", [⟨none, 393, (some "Option<MultiLocation>"), []⟩], 30, []⟩, ⟨"ExpectError", [⟨none, 384, (some "Option<(u32, Error)>"), []⟩], 31, []⟩, ⟨"ExpectTransactStatus", [⟨none, 391, (some "MaybeErrorCode"), []⟩], 32, []⟩, ⟨"QueryPallet", [⟨(some "module_name"), 14, (some "Vec<u8>"), []⟩, ⟨(some "response_info"), 395, (some "QueryResponseInfo"), []⟩], 33, []⟩, ⟨"ExpectPallet", [⟨(some "index"), 59, (some "u32"), []⟩, ⟨(some "name"), 14, (some "Vec<u8>"), []⟩, ⟨(some "module_name"), 14, (some "Vec<u8>"), []⟩, ⟨(some "crate_major"), 59, (some "u32"), []⟩, ⟨(some "min_crate_minor"), 59, (some "u32"), []⟩], 34, []⟩, ⟨"ReportTransactStatus", [⟨none, 395, (some "QueryResponseInfo"), []⟩], 35, []⟩, ⟨"ClearTransactStatus", [], 36, []⟩, ⟨"UniversalOrigin", [⟨none, 58, (some "Junction"), []⟩], 37, []⟩, ⟨"ExportMessage", [⟨(some "network"), 61, (some "NetworkId"), []⟩, ⟨(some "destination"), 57, (some "InteriorMultiLocation"), []⟩, ⟨(some "xcm"), 375, (some "Xcm<()>"), []⟩], 38, []⟩, ⟨"LockAsset", [⟨(some "asset"), 380, (some "MultiAsset"), []⟩, ⟨(some "unlocker"), 56, (some "MultiLocation"), []⟩], 39, []⟩, ⟨"UnlockAsset", [⟨(some "asset"), 380, (some "MultiAsset"), []⟩, ⟨(some "target"), 56, (some "MultiLocation"), []⟩], 40, []⟩, ⟨"NoteUnlockable", [⟨(some "asset"), 380, (some "MultiAsset"), []⟩, ⟨(some "owner"), 56, (some "MultiLocation"), []⟩], 41, []⟩, ⟨"RequestUnlock", [⟨(some "asset"), 380, (some "MultiAsset"), []⟩, ⟨(some "locker"), 56, (some "MultiLocation"), []⟩], 42, []⟩, ⟨"SetFeesMode", [⟨(some "jit_withdraw"), 8, (some "bool"), []⟩], 43, []⟩, ⟨"SetTopic", [⟨none, 1, (some "[u8; 32]"), []⟩], 44, []⟩, ⟨"ClearTopic", [], 45, []⟩, ⟨"AliasOrigin", [⟨none, 56, (some "MultiLocation"), []⟩], 46, []⟩, ⟨"UnpaidExecution", [⟨(some "weight_limit"), 399, (some "WeightLimit"), []⟩, ⟨(some "check_origin"), 393, (some "Option<MultiLocation>"), []⟩], 47, []⟩], []⟩,
   ⟨["staging_xcm", "v4", "Xcm"], [("Call", none)], .composite [⟨none, 428, (some "Vec<Instruction<Call>>"), []⟩], []⟩,
   ⟨[], [], .sequence 429, []⟩,
   ⟨["staging_xcm", "v4", "Instruction"], [("Call", none)], .variant [⟨"WithdrawAsset", [⟨none, 403, (some "Assets"), []⟩], 0, []⟩, ⟨"ReserveAssetDeposited", [⟨none, 403, (some "Assets"), []⟩], 1, []⟩, ⟨"ReceiveTeleportedAsset", [⟨none, 403, (some "Assets"), []⟩], 2, []⟩, ⟨"QueryResponse", [⟨(some "query_id"), 11, (some "QueryId"), []⟩, ⟨(some "response"), 408, (some "Response"), []⟩, ⟨(some "max_weight"), 10, (some "Weight"), []⟩, ⟨(some "querier"), 413, (some "Option<Location>"), []⟩], 3, []⟩, ⟨"TransferAsset", [⟨(some "assets"), 403, (some "Assets"), []⟩, ⟨(some "beneficiary"), 67, (some "Location"), []⟩], 4, []⟩, ⟨"TransferReserveAsset", [⟨(some "assets"), 403, (some "Assets"), []⟩, ⟨(some "dest"), 67, (some "Location"), []⟩, ⟨(some "xcm"), 400, (some "Xcm<()>"), []⟩], 5, []⟩, ⟨"Transact", [⟨(some "origin_kind"), 394, (some "OriginKind"), []⟩, ⟨(some "require_weight_at_most"), 10, (some "Weight"), []⟩, ⟨(some "call"), 423, (some "DoubleEncoded<Call>"), []⟩], 6, []⟩, ⟨"HrmpNewChannelOpenRequest", [⟨(some "sender"), 59, (some "u32"), []⟩, ⟨(some "max_message_size"), 59, (some "u32"), []⟩, ⟨(some "max_capacity"), 59, (some "u32"), []⟩], 7, []⟩, ⟨"HrmpChannelAccepted", [⟨(some "recipient"), 59, (some "u32"), []⟩], 8, []⟩, ⟨"HrmpChannelClosing", [⟨(some "initiator"), 59, (some "u32"), []⟩, ⟨(some "sender"), 59, (some "u32"), []⟩, ⟨(some "recipient"), 59, (some "u32"), []⟩], 9, []⟩, ⟨"ClearOrigin", [], 10, []⟩, ⟨"DescendOrigin", [⟨none, 68, (some "InteriorLocation"), []⟩], 11, []⟩, ⟨"ReportError", [⟨none, 414, (some "QueryResponseInfo"), []⟩], 12, []⟩, ⟨"DepositAsset", [⟨(some "assets"), 415, (some "AssetFilter"), []⟩, ⟨(some "beneficiary"), 67, (some "Location"), []⟩], 13, []⟩, ⟨"DepositReserveAsset", [⟨(some "assets"), 415, (some "AssetFilter"), []⟩, ⟨(some "dest"), 67, (some "Location"), []⟩, ⟨(some "xcm"), 400, (some "Xcm<()>"), []⟩], 14, []⟩, ⟨"ExchangeAsset", [⟨(some "give"), 415, (some "AssetFilter"), []⟩, ⟨(some "want"), 403, (some "Assets"), []⟩, ⟨(some "maximal"), 8, (some "bool"), []⟩], 15, []⟩, ⟨"InitiateReserveWithdraw", [⟨(some "assets"), 415, (some "AssetFilter"), []⟩, ⟨(some "reserve"), 67, (some "Location"), []⟩, ⟨(some "xcm"), 400, (some "Xcm<()>"), []⟩], 16, []⟩, ⟨"InitiateTeleport", [⟨(some "assets"), 415, (some "AssetFilter"), []⟩, ⟨(some "dest"), 67, (some "Location"), []⟩, ⟨(some "xcm"), 400, (some "Xcm<()>"), []⟩], 17, []⟩, ⟨"ReportHolding", [⟨(some "response_info"), 414, (some "QueryResponseInfo"), []⟩, ⟨(some "assets"), 415, (some "AssetFilter"), []⟩], 18, []⟩, ⟨"BuyExecution", [⟨(some "fees"), 405, (some "Asset"), []⟩, ⟨(some "weight_limit"), 399, (some "WeightLimit"), []⟩], 19, []⟩, ⟨"RefundSurplus", [], 20, []⟩, ⟨"SetErrorHandler", [⟨none, 427, (some "Xcm<Call>"), []⟩], 21, []⟩, ⟨"SetAppendix", [⟨none, 427, (some "Xcm<Call>"), []⟩], 22, []⟩, ⟨"ClearError", [], 23, []⟩, ⟨"ClaimAsset", [⟨(some "assets"), 403, (some "Assets"), []⟩, ⟨(some "ticket"), 67, (some "Location"), []⟩], 24, []⟩, ⟨"Trap", [⟨none, 11, (some "u64"), []⟩], 25, []⟩, ⟨"SubscribeVersion", [⟨(some "query_id"), 11, (some "QueryId"), []⟩, ⟨(some "max_response_weight"), 10, (some "Weight"), []⟩], 26, []⟩, ⟨"UnsubscribeVersion", [], 27, []⟩, ⟨"BurnAsset", [⟨none, 403, (some "Assets"), []⟩], 28, []⟩, ⟨"ExpectAsset", [⟨none, 403, (some "Assets"), []⟩], 29, []⟩, ⟨"ExpectOrigin", [⟨none, 413, (some "Option<Location>"), []⟩], 30, []⟩, ⟨"ExpectError", [⟨none, 384, (some "Option<(u32, Error)>"), []⟩], 31, []⟩, ⟨"ExpectTransactStatus", [⟨none, 391, (some "MaybeErrorCode"), []⟩], 32, []⟩, ⟨"QueryPallet", [⟨(some "module_name"), 14, (some "Vec<u8>"), []⟩, ⟨(some "response_info"), 414, (some "QueryResponseInfo"), []⟩], 33, []⟩, ⟨"ExpectPallet", [⟨(some "index"), 59, (some "u32"), []⟩, ⟨(some "name"), 14, (some "Vec<u8>"), []⟩, ⟨(some "module_name"), 14, (some "Vec<u8>"), []⟩, ⟨(some "crate_major"), 59, (some "u32"), []⟩, ⟨(some "min_crate_minor"), 59, (some "u32"), []⟩], 34, []⟩, ⟨"ReportTransactStatus", [⟨none, 414, (some "QueryResponseInfo"), []⟩], 35, []⟩, ⟨"ClearTransactStatus", [], 36, []⟩, ⟨"UniversalOrigin", [⟨none, 70, (some "Junction"), []⟩], 37, []⟩, ⟨"ExportMessage", [⟨(some "network"), 72, (some "NetworkId"), []⟩, ⟨(some "destination"), 68, (some "InteriorLocation"), []⟩, ⟨(some "xcm"), 400, (some "Xcm<()>"), []⟩], 38, []⟩, ⟨"LockAsset", [⟨(some "asset"), 405, (some "Asset"), []⟩, ⟨(some "unlocker"), 67, (some "Location"), []⟩], 39, []⟩, ⟨"UnlockAsset", [⟨(some "asset"), 405, (some "Asset"), []⟩, ⟨(some "target"), 67, (some "Location"), []⟩], 40, []⟩, ⟨"NoteUnlockable", [⟨(some "asset"), 405, (some "Asset"), []⟩, ⟨(some "owner"), 67, (some "Location"), []⟩], 41, []⟩, ⟨"RequestUnlock", [⟨(some "asset"), 405, (some "Asset"), []⟩, ⟨(some "locker"), 67, (some "Location"), []⟩], 42, []⟩, ⟨"SetFeesMode", [⟨(some "jit_withdraw"), 8, (some "bool"), []⟩], 43, []⟩, ⟨"SetTopic", [⟨none, 1, (some "[u8; 32]"), []⟩], 44, []⟩, ⟨"ClearTopic", [], 45, []⟩, ⟨"AliasOrigin", [⟨none, 67, (some "Location"), []⟩], 46, []⟩, ⟨"UnpaidExecution", [⟨(some "weight_limit"), 399, (some "WeightLimit"), []⟩, ⟨(some "check_origin"), 413, (some "Option<Location>"), []⟩], 47, []⟩], []⟩,
   ⟨["staging_xcm_executor", "traits", "asset_transfer", "TransferType"], [], .variant [⟨"Teleport", [], 0, []⟩, ⟨"LocalReserve", [], 1, []⟩, ⟨"DestinationReserve", [], 2, []⟩, ⟨"RemoteReserve", [⟨none, 81, (some "VersionedLocation"), []⟩], 3, []⟩], []⟩,
   ⟨["xcm", "VersionedAssetId"], [], .variant [⟨"V3", [⟨none, 66, (some "v3::AssetId"), []⟩], 3, []⟩, ⟨"V4", [⟨none, 80, (some "v4::AssetId"), []⟩], 4, []⟩], []⟩,
   ⟨["pallet_message_queue", "pallet", "Call"], [("T", none)], .variant [⟨"reap_page", [⟨(some "message_origin"), 433, (some "MessageOriginOf<T>"), []⟩, ⟨(some "page_index"), 4, (some "PageIndex"), []⟩], 0, []⟩, ⟨"execute_overweight", [⟨(some "message_origin"), 433, (some "MessageOriginOf<T>"), []⟩, ⟨(some "page"), 4, (some "PageIndex"), []⟩, ⟨(some "index"), 4, (some "T::Size"), []⟩, ⟨(some "weight_limit"), 10, (some "Weight"), []⟩], 1, []⟩], []⟩,
   ⟨["polkadot_runtime_parachains", "inclusion", "AggregateMessageOrigin"], [], .variant [⟨"Ump", [⟨none, 434, (some "UmpQueueId"), []⟩], 0, []⟩], []⟩,
   ⟨["polkadot_runtime_parachains", "inclusion", "UmpQueueId"], [], .variant [⟨"Para", [⟨none, 163, (some "ParaId"), []⟩], 0, []⟩], []⟩,
   ⟨["pallet_asset_rate", "pallet", "Call"], [("T", none)], .variant [⟨"create", [⟨(some "asset_kind"), 55, (some "Box<T::AssetKind>"), []⟩, ⟨(some "rate"), 436, (some "FixedU128"), []⟩], 0, []⟩, ⟨"update", [⟨(some "asset_kind"), 55, (some "Box<T::AssetKind>"), []⟩, ⟨(some "rate"), 436, (some "FixedU128"), []⟩], 1, []⟩, ⟨"remove", [⟨(some "asset_kind"), 55, (some "Box<T::AssetKind>"), []⟩], 2, []⟩], []⟩,
   ⟨["sp_arithmetic", "fixed_point", "FixedU128"], [], .composite [⟨none, 6, (some "u128"), []⟩], []⟩,
   ⟨["pallet_beefy", "pallet", "Call"], [("T", none)], .variant [⟨"report_equivocation", [⟨(some "equivocation_proof"), 438, (some "Box<DoubleVotingProof<BlockNumberFor<T>, T::BeefyId,<T::BeefyId\nas RuntimeAppPublic>::Signature,>,>"), []⟩, ⟨(some "key_owner_proof"), 107, (some "T::KeyOwnerProof"), []⟩], 0, []⟩, ⟨"report_equivocation_unsigned", [⟨(some "equivocation_proof"), 438, (some "Box<DoubleVotingProof<BlockNumberFor<T>, T::BeefyId,<T::BeefyId\nas RuntimeAppPublic>::Signature,>,>"), []⟩, ⟨(some "key_owner_proof"), 107, (some "T::KeyOwnerProof"), []⟩], 1, []⟩, ⟨"set_new_genesis", [⟨(some "delay_in_blocks"), 4, (some "BlockNumberFor<T>"), []⟩], 2, []⟩], []⟩,
   ⟨["sp_consensus_beefy", "DoubleVotingProof"], [("Number", (some 4)), ("Id", (some 138)), ("Signature", (some 439))], .composite [⟨(some "first"), 440, (some "VoteMessage<Number, Id, Signature>"), []⟩, ⟨(some "second"), 440, (some "VoteMessage<Number, Id, Signature>"), []⟩], []⟩,
   ⟨["sp_consensus_beefy", "ecdsa_crypto", "Signature"], [], .composite [⟨none, 182, (some "ecdsa::Signature"), []⟩], []⟩,
   ⟨["sp_consensus_beefy", "VoteMessage"], [("Number", (some 4)), ("Id", (some 138)), ("Signature", (some 439))], .composite [⟨(some "commitment"), 441, (some "Commitment<Number>"), []⟩, ⟨(some "id"), 138, (some "Id"), []⟩, ⟨(some "signature"), 439, (some "Signature"), []⟩], []⟩,
   ⟨["sp_consensus_beefy", "commitment", "Commitment"], [("TBlockNumber", (some 4))], .composite [⟨(some "payload"), 442, (some "Payload"), []⟩, ⟨(some "block_number"), 4, (some "TBlockNumber"), []⟩, ⟨(some "validator_set_id"), 12, (some "ValidatorSetId"), []⟩], []⟩,
   ⟨["sp_consensus_beefy", "payload", "Payload"], [], .composite [⟨none, 443, (some "Vec<(BeefyPayloadId, Vec<u8>)>"), []⟩], []⟩,
   ⟨[], [], .sequence 444, []⟩,
   ⟨[], [], .tuple [445, 14], []⟩,
   ⟨[], [], .array 2 2, []⟩,
   ⟨["sp_runtime", "traits", "BlakeTwo256"], [], .composite [], []⟩,
   ⟨["bounded_collections", "bounded_vec", "BoundedVec"], [("T", (some 2)), ("S", none)], .composite [⟨none, 14, (some "Vec<T>"), []⟩], []⟩]

/-- Types 448 to 479 of `for_tests/polkadot1003003_v15`. -/
def types14 : List Typ :=
  [⟨["pallet_conviction_voting", "types", "Tally"], [("Votes", (some 6)), ("Total", none)], .composite [⟨(some "ayes"), 6, (some "Votes"), []⟩, ⟨(some "nays"), 6, (some "Votes"), []⟩, ⟨(some "support"), 6, (some "Votes"), []⟩], []⟩,
   ⟨["pallet_whitelist", "pallet", "Event"], [("T", none)], .variant [⟨"CallWhitelisted", [⟨(some "call_hash"), 13, (some "T::Hash"), []⟩], 0, []⟩, ⟨"WhitelistedCallRemoved", [⟨(some "call_hash"), 13, (some "T::Hash"), []⟩], 1, []⟩, ⟨"WhitelistedCallDispatched", [⟨(some "call_hash"), 13, (some "T::Hash"), []⟩, ⟨(some "result"), 450, (some "DispatchResultWithPostInfo"), []⟩], 2, []⟩], []⟩,
   ⟨["Result"], [("T", (some 451)), ("E", (some 453))], .variant [⟨"Ok", [⟨none, 451, none, []⟩], 0, []⟩, ⟨"Err", [⟨none, 453, none, []⟩], 1, []⟩], []⟩,
   ⟨["frame_support", "dispatch", "PostDispatchInfo"], [], .composite [⟨(some "actual_weight"), 452, (some "Option<Weight>"), []⟩, ⟨(some "pays_fee"), 25, (some "Pays"), []⟩], []⟩,
   ⟨["Option"], [("T", (some 10))], .variant [⟨"None", [], 0, []⟩, ⟨"Some", [⟨none, 10, none, []⟩], 1, []⟩], []⟩,
   ⟨["sp_runtime", "DispatchErrorWithPostInfo"], [("Info", (some 451))], .composite [⟨(some "post_info"), 451, (some "Info"), []⟩, ⟨(some "error"), 26, (some "DispatchError"), []⟩], []⟩,
   ⟨["pallet_parameters", "pallet", "Event"], [("T", none)], .variant [⟨"Updated", [⟨(some "key"), 455, (some "<T::RuntimeParameters as AggregatedKeyValue>::Key"), []⟩, ⟨(some "old_value"), 457, (some "Option<<T::RuntimeParameters as AggregatedKeyValue>::Value>"), []⟩, ⟨(some "new_value"), 457, (some "Option<<T::RuntimeParameters as AggregatedKeyValue>::Value>"), []⟩], 0, []⟩], []⟩,
   ⟨["polkadot_runtime", "RuntimeParametersKey"], [], .variant [⟨"Inflation", [⟨none, 456, (some "<dynamic_params::inflation::Parameters as frame_support::traits::\ndynamic_params::AggregatedKeyValue>::Key"), []⟩], 0, []⟩], []⟩,
   ⟨["polkadot_runtime", "dynamic_params", "inflation", "ParametersKey"], [], .variant [⟨"MinInflation", [⟨none, 172, (some "MinInflation"), []⟩], 0, []⟩, ⟨"MaxInflation", [⟨none, 175, (some "MaxInflation"), []⟩], 1, []⟩, ⟨"IdealStake", [⟨none, 176, (some "IdealStake"), []⟩], 2, []⟩, ⟨"Falloff", [⟨none, 177, (some "Falloff"), []⟩], 3, []⟩, ⟨"UseAuctionSlots", [⟨none, 178, (some "UseAuctionSlots"), []⟩], 4, []⟩], []⟩,
   ⟨["Option"], [("T", (some 458))], .variant [⟨"None", [], 0, []⟩, ⟨"Some", [⟨none, 458, none, []⟩], 1, []⟩], []⟩,
   ⟨["polkadot_runtime", "RuntimeParametersValue"], [], .variant [⟨"Inflation", [⟨none, 459, (some "<dynamic_params::inflation::Parameters as frame_support::traits::\ndynamic_params::AggregatedKeyValue>::Value"), []⟩], 0, []⟩], []⟩,
   ⟨["polkadot_runtime", "dynamic_params", "inflation", "ParametersValue"], [], .variant [⟨"MinInflation", [⟨none, 174, (some "Perquintill"), []⟩], 0, []⟩, ⟨"MaxInflation", [⟨none, 174, (some "Perquintill"), []⟩], 1, []⟩, ⟨"IdealStake", [⟨none, 174, (some "Perquintill"), []⟩], 2, []⟩, ⟨"Falloff", [⟨none, 174, (some "Perquintill"), []⟩], 3, []⟩, ⟨"UseAuctionSlots", [⟨none, 8, (some "bool"), []⟩], 4, []⟩], []⟩,
   ⟨["polkadot_runtime_common", "claims", "pallet", "Event"], [("T", none)], .variant [⟨"Claimed", [⟨(some "who"), 0, (some "T::AccountId"), []⟩, ⟨(some "ethereum_address"), 183, (some "EthereumAddress"), []⟩, ⟨(some "amount"), 6, (some "BalanceOf<T>"), []⟩], 0, []⟩], []⟩,
   ⟨["pallet_vesting", "pallet", "Event"], [("T", none)], .variant [⟨"VestingUpdated", [⟨(some "account"), 0, (some "T::AccountId"), []⟩, ⟨(some "unvested"), 6, (some "BalanceOf<T>"), []⟩], 0, []⟩, ⟨"VestingCompleted", [⟨(some "account"), 0, (some "T::AccountId"), []⟩], 1, []⟩], []⟩,
   ⟨["pallet_utility", "pallet", "Event"], [], .variant [⟨"BatchInterrupted", [⟨(some "index"), 4, (some "u32"), []⟩, ⟨(some "error"), 26, (some "DispatchError"), []⟩], 0, []⟩, ⟨"BatchCompleted", [], 1, []⟩, ⟨"BatchCompletedWithErrors", [], 2, []⟩, ⟨"ItemCompleted", [], 3, []⟩, ⟨"ItemFailed", [⟨(some "error"), 26, (some "DispatchError"), []⟩], 4, []⟩, ⟨"DispatchedAs", [⟨(some "result"), 34, (some "DispatchResult"), []⟩], 5, []⟩], []⟩,
   ⟨["pallet_proxy", "pallet", "Event"], [("T", none)], .variant [⟨"ProxyExecuted", [⟨(some "result"), 34, (some "DispatchResult"), []⟩], 0, []⟩, ⟨"PureCreated", [⟨(some "pure"), 0, (some "T::AccountId"), []⟩, ⟨(some "who"), 0, (some "T::AccountId"), []⟩, ⟨(some "proxy_type"), 194, (some "T::ProxyType"), []⟩, ⟨(some "disambiguation_index"), 91, (some "u16"), []⟩], 1, []⟩, ⟨"Announced", [⟨(some "real"), 0, (some "T::AccountId"), []⟩, ⟨(some "proxy"), 0, (some "T::AccountId"), []⟩, ⟨(some "call_hash"), 13, (some "CallHashOf<T>"), []⟩], 2, []⟩, ⟨"ProxyAdded", [⟨(some "delegator"), 0, (some "T::AccountId"), []⟩, ⟨(some "delegatee"), 0, (some "T::AccountId"), []⟩, ⟨(some "proxy_type"), 194, (some "T::ProxyType"), []⟩, ⟨(some "delay"), 4, (some "BlockNumberFor<T>"), []⟩], 3, []⟩, ⟨"ProxyRemoved", [⟨(some "delegator"), 0, (some "T::AccountId"), []⟩, ⟨(some "delegatee"), 0, (some "T::AccountId"), []⟩, ⟨(some "proxy_type"), 194, (some "T::ProxyType"), []⟩, ⟨(some "delay"), 4, (some "BlockNumberFor<T>"), []⟩], 4, []⟩], []⟩,
   ⟨["pallet_multisig", "pallet", "Event"], [("T", none)], .variant [⟨"NewMultisig", [⟨(some "approving"), 0, (some "T::AccountId"), []⟩, ⟨(some "multisig"), 0, (some "T::AccountId"), []⟩, ⟨(some "call_hash"), 1, (some "CallHash"), []⟩], 0, []⟩, ⟨"MultisigApproval", [⟨(some "approving"), 0, (some "T::AccountId"), []⟩, ⟨(some "timepoint"), 197, (some "Timepoint<BlockNumberFor<T>>"), []⟩, ⟨(some "multisig"), 0, (some "T::AccountId"), []⟩, ⟨(some "call_hash"), 1, (some "CallHash"), []⟩], 1, []⟩, ⟨"MultisigExecuted", [⟨(some "approving"), 0, (some "T::AccountId"), []⟩, ⟨(some "timepoint"), 197, (some "Timepoint<BlockNumberFor<T>>"), []⟩, ⟨(some "multisig"), 0, (some "T::AccountId"), []⟩, ⟨(some "call_hash"), 1, (some "CallHash"), []⟩, ⟨(some "result"), 34, (some "DispatchResult"), []⟩], 2, []⟩, ⟨"MultisigCancelled", [⟨(some "cancelling"), 0, (some "T::AccountId"), []⟩, ⟨(some "timepoint"), 197, (some "Timepoint<BlockNumberFor<T>>"), []⟩, ⟨(some "multisig"), 0, (some "T::AccountId"), []⟩, ⟨(some "call_hash"), 1, (some "CallHash"), []⟩], 3, []⟩], []⟩,
   ⟨["pallet_bounties", "pallet", "Event"], [("T", none), ("I", none)], .variant [⟨"BountyProposed", [⟨(some "index"), 4, (some "BountyIndex"), []⟩], 0, []⟩, ⟨"BountyRejected", [⟨(some "index"), 4, (some "BountyIndex"), []⟩, ⟨(some "bond"), 6, (some "BalanceOf<T, I>"), []⟩], 1, []⟩, ⟨"BountyBecameActive", [⟨(some "index"), 4, (some "BountyIndex"), []⟩], 2, []⟩, ⟨"BountyAwarded", [⟨(some "index"), 4, (some "BountyIndex"), []⟩, ⟨(some "beneficiary"), 0, (some "T::AccountId"), []⟩], 3, []⟩, ⟨"BountyClaimed", [⟨(some "index"), 4, (some "BountyIndex"), []⟩, ⟨(some "payout"), 6, (some "BalanceOf<T, I>"), []⟩, ⟨(some "beneficiary"), 0, (some "T::AccountId"), []⟩], 4, []⟩, ⟨"BountyCanceled", [⟨(some "index"), 4, (some "BountyIndex"), []⟩], 5, []⟩, ⟨"BountyExtended", [⟨(some "index"), 4, (some "BountyIndex"), []⟩], 6, []⟩, ⟨"BountyApproved", [⟨(some "index"), 4, (some "BountyIndex"), []⟩], 7, []⟩, ⟨"CuratorProposed", [⟨(some "bounty_id"), 4, (some "BountyIndex"), []⟩, ⟨(some "curator"), 0, (some "T::AccountId"), []⟩], 8, []⟩, ⟨"CuratorUnassigned", [⟨(some "bounty_id"), 4, (some "BountyIndex"), []⟩], 9, []⟩, ⟨"CuratorAccepted", [⟨(some "bounty_id"), 4, (some "BountyIndex"), []⟩, ⟨(some "curator"), 0, (some "T::AccountId"), []⟩], 10, []⟩], []⟩,
   ⟨["pallet_child_bounties", "pallet", "Event"], [("T", none)], .variant [⟨"Added", [⟨(some "index"), 4, (some "BountyIndex"), []⟩, ⟨(some "child_index"), 4, (some "BountyIndex"), []⟩], 0, []⟩, ⟨"Awarded", [⟨(some "index"), 4, (some "BountyIndex"), []⟩, ⟨(some "child_index"), 4, (some "BountyIndex"), []⟩, ⟨(some "beneficiary"), 0, (some "T::AccountId"), []⟩], 1, []⟩, ⟨"Claimed", [⟨(some "index"), 4, (some "BountyIndex"), []⟩, ⟨(some "child_index"), 4, (some "BountyIndex"), []⟩, ⟨(some "payout"), 6, (some "BalanceOf<T>"), []⟩, ⟨(some "beneficiary"), 0, (some "T::AccountId"), []⟩], 2, []⟩, ⟨"Canceled", [⟨(some "index"), 4, (some "BountyIndex"), []⟩, ⟨(some "child_index"), 4, (some "BountyIndex"), []⟩], 3, []⟩], []⟩,
   ⟨["pallet_election_provider_multi_phase", "pallet", "Event"], [("T", none)], .variant [⟨"SolutionStored", [⟨(some "compute"), 468, (some "ElectionCompute"), []⟩, ⟨(some "origin"), 127, (some "Option<T::AccountId>"), []⟩, ⟨(some "prev_ejected"), 8, (some "bool"), []⟩], 0, []⟩, ⟨"ElectionFinalized", [⟨(some "compute"), 468, (some "ElectionCompute"), []⟩, ⟨(some "score"), 253, (some "ElectionScore"), []⟩], 1, []⟩, ⟨"ElectionFailed", [], 2, []⟩, ⟨"Rewarded", [⟨(some "account"), 0, (some "<T as frame_system::Config>::AccountId"), []⟩, ⟨(some "value"), 6, (some "BalanceOf<T>"), []⟩], 3, []⟩, ⟨"Slashed", [⟨(some "account"), 0, (some "<T as frame_system::Config>::AccountId"), []⟩, ⟨(some "value"), 6, (some "BalanceOf<T>"), []⟩], 4, []⟩, ⟨"PhaseTransitioned", [⟨(some "from"), 469, (some "Phase<BlockNumberFor<T>>"), []⟩, ⟨(some "to"), 469, (some "Phase<BlockNumberFor<T>>"), []⟩, ⟨(some "round"), 4, (some "u32"), []⟩], 5, []⟩], []⟩,
   ⟨["pallet_election_provider_multi_phase", "ElectionCompute"], [], .variant [⟨"OnChain", [], 0, []⟩, ⟨"Signed", [], 1, []⟩, ⟨"Unsigned", [], 2, []⟩, ⟨"Fallback", [], 3, []⟩, ⟨"Emergency", [], 4, []⟩], []⟩,
   ⟨["pallet_election_provider_multi_phase", "Phase"], [("Bn", (some 4))], .variant [⟨"Off", [], 0, []⟩, ⟨"Signed", [], 1, []⟩, ⟨"Unsigned", [⟨none, 470, (some "(bool, Bn)"), []⟩], 2, []⟩, ⟨"Emergency", [], 3, []⟩], []⟩,
   ⟨[], [], .tuple [8, 4], []⟩,
   ⟨["pallet_bags_list", "pallet", "Event"], [("T", none), ("I", none)], .variant [⟨"Rebagged", [⟨(some "who"), 0, (some "T::AccountId"), []⟩, ⟨(some "from"), 12, (some "T::Score"), []⟩, ⟨(some "to"), 12, (some "T::Score"), []⟩], 0, []⟩, ⟨"ScoreUpdated", [⟨(some "who"), 0, (some "T::AccountId"), []⟩, ⟨(some "new_score"), 12, (some "T::Score"), []⟩], 1, []⟩], []⟩,
   ⟨["pallet_nomination_pools", "pallet", "Event"], [("T", none)], .variant [⟨"Created", [⟨(some "depositor"), 0, (some "T::AccountId"), []⟩, ⟨(some "pool_id"), 4, (some "PoolId"), []⟩], 0, []⟩, ⟨"Bonded", [⟨(some "member"), 0, (some "T::AccountId"), []⟩, ⟨(some "pool_id"), 4, (some "PoolId"), []⟩, ⟨(some "bonded"), 6, (some "BalanceOf<T>"), []⟩, ⟨(some "joined"), 8, (some "bool"), []⟩], 1, []⟩, ⟨"PaidOut", [⟨(some "member"), 0, (some "T::AccountId"), []⟩, ⟨(some "pool_id"), 4, (some "PoolId"), []⟩, ⟨(some "payout"), 6, (some "BalanceOf<T>"), []⟩], 2, []⟩, ⟨"Unbonded", [⟨(some "member"), 0, (some "T::AccountId"), []⟩, ⟨(some "pool_id"), 4, (some "PoolId"), []⟩, ⟨(some "balance"), 6, (some "BalanceOf<T>"), []⟩, ⟨(some "points"), 6, (some "BalanceOf<T>"), []⟩, ⟨(some "era"), 4, (some "EraIndex"), []⟩], 3, []⟩, ⟨"Withdrawn", [⟨(some "member"), 0, (some "T::AccountId"), []⟩, ⟨(some "pool_id"), 4, (some "PoolId"), []⟩, ⟨(some "balance"), 6, (some "BalanceOf<T>"), []⟩, ⟨(some "points"), 6, (some "BalanceOf<T>"), []⟩], 4, []⟩, ⟨"Destroyed", [⟨(some "pool_id"), 4, (some "PoolId"), []⟩], 5, []⟩, ⟨"StateChanged", [⟨(some "pool_id"), 4, (some "PoolId"), []⟩, ⟨(some "new_state"), 264, (some "PoolState"), []⟩], 6, []⟩, ⟨"MemberRemoved", [⟨(some "pool_id"), 4, (some "PoolId"), []⟩, ⟨(some "member"), 0, (some "T::AccountId"), []⟩], 7, []⟩, ⟨"RolesUpdated", [⟨(some "root"), 127, (some "Option<T::AccountId>"), []⟩, ⟨(some "bouncer"), 127, (some "Option<T::AccountId>"), []⟩, ⟨(some "nominator"), 127, (some "Option<T::AccountId>"), []⟩], 8, []⟩, ⟨"PoolSlashed", [⟨(some "pool_id"), 4, (some "PoolId"), []⟩, ⟨(some "balance"), 6, (some "BalanceOf<T>"), []⟩], 9, []⟩, ⟨"UnbondingPoolSlashed", [⟨(some "pool_id"), 4, (some "PoolId"), []⟩, ⟨(some "era"), 4, (some "EraIndex"), []⟩, ⟨(some "balance"), 6, (some "BalanceOf<T>"), []⟩], 10, []⟩, ⟨"PoolCommissionUpdated", [⟨(some "pool_id"), 4, (some "PoolId"), []⟩, ⟨(some "current"), 270, (some "Option<(Perbill, T::AccountId)>"), []⟩], 11, []⟩, ⟨"PoolMaxCommissionUpdated", [⟨(some "pool_id"), 4, (some "PoolId"), []⟩, ⟨(some "max_commission"), 43, (some "Perbill"), []⟩], 12, []⟩, ⟨"PoolCommissionChangeRateUpdated", [⟨(some "pool_id"), 4, (some "PoolId"), []⟩, ⟨(some "change_rate"), 272, (some "CommissionChangeRate<BlockNumberFor<T>>"), []⟩], 13, []⟩, ⟨"PoolCommissionClaimPermissionUpdated", [⟨(some "pool_id"), 4, (some "PoolId"), []⟩, ⟨(some "permission"), 273, (some "Option<CommissionClaimPermission<T::AccountId>>"), []⟩], 14, []⟩, ⟨"PoolCommissionClaimed", [⟨(some "pool_id"), 4, (some "PoolId"), []⟩, ⟨(some "commission"), 6, (some "BalanceOf<T>"), []⟩], 15, []⟩, ⟨"MinBalanceDeficitAdjusted", [⟨(some "pool_id"), 4, (some "PoolId"), []⟩, ⟨(some "amount"), 6, (some "BalanceOf<T>"), []⟩], 16, []⟩, ⟨"MinBalanceExcessAdjusted", [⟨(some "pool_id"), 4, (some "PoolId"), []⟩, ⟨(some "amount"), 6, (some "BalanceOf<T>"), []⟩], 17, []⟩], []⟩,
   ⟨["pallet_fast_unstake", "pallet", "Event"], [("T", none)], .variant [⟨"Unstaked", [⟨(some "stash"), 0, (some "T::AccountId"), []⟩, ⟨(some "result"), 34, (some "DispatchResult"), []⟩], 0, []⟩, ⟨"Slashed", [⟨(some "stash"), 0, (some "T::AccountId"), []⟩, ⟨(some "amount"), 6, (some "BalanceOf<T>"), []⟩], 1, []⟩, ⟨"BatchChecked", [⟨(some "eras"), 121, (some "Vec<EraIndex>"), []⟩], 2, []⟩, ⟨"BatchFinished", [⟨(some "size"), 4, (some "u32"), []⟩], 3, []⟩, ⟨"InternalError", [], 4, []⟩], []⟩,
   ⟨["polkadot_runtime_parachains", "inclusion", "pallet", "Event"], [("T", none)], .variant [⟨"CandidateBacked", [⟨none, 475, (some "CandidateReceipt<T::Hash>"), []⟩, ⟨none, 310, (some "HeadData"), []⟩, ⟨none, 476, (some "CoreIndex"), []⟩, ⟨none, 477, (some "GroupIndex"), []⟩], 0, []⟩, ⟨"CandidateIncluded", [⟨none, 475, (some "CandidateReceipt<T::Hash>"), []⟩, ⟨none, 310, (some "HeadData"), []⟩, ⟨none, 476, (some "CoreIndex"), []⟩, ⟨none, 477, (some "GroupIndex"), []⟩], 1, []⟩, ⟨"CandidateTimedOut", [⟨none, 475, (some "CandidateReceipt<T::Hash>"), []⟩, ⟨none, 310, (some "HeadData"), []⟩, ⟨none, 476, (some "CoreIndex"), []⟩], 2, []⟩, ⟨"UpwardMessagesReceived", [⟨(some "from"), 163, (some "ParaId"), []⟩, ⟨(some "count"), 4, (some "u32"), []⟩], 3, []⟩], []⟩,
   ⟨["polkadot_primitives", "v7", "CandidateReceipt"], [("H", (some 13))], .composite [⟨(some "descriptor"), 299, (some "CandidateDescriptor<H>"), []⟩, ⟨(some "commitments_hash"), 13, (some "Hash"), []⟩], []⟩,
   ⟨["polkadot_primitives", "v7", "CoreIndex"], [], .composite [⟨none, 4, (some "u32"), []⟩], []⟩,
   ⟨["polkadot_primitives", "v7", "GroupIndex"], [], .composite [⟨none, 4, (some "u32"), []⟩], []⟩,
   ⟨["polkadot_runtime_parachains", "paras", "pallet", "Event"], [], .variant [⟨"CurrentCodeUpdated", [⟨none, 163, (some "ParaId"), []⟩], 0, []⟩, ⟨"CurrentHeadUpdated", [⟨none, 163, (some "ParaId"), []⟩], 1, []⟩, ⟨"CodeUpgradeScheduled", [⟨none, 163, (some "ParaId"), []⟩], 2, []⟩, ⟨"NewHeadNoted", [⟨none, 163, (some "ParaId"), []⟩], 3, []⟩, ⟨"ActionQueued", [⟨none, 163, (some "ParaId"), []⟩, ⟨none, 4, (some "SessionIndex"), []⟩], 4, []⟩, ⟨"PvfCheckStarted", [⟨none, 302, (some "ValidationCodeHash"), []⟩, ⟨none, 163, (some "ParaId"), []⟩], 5, []⟩, ⟨"PvfCheckAccepted", [⟨none, 302, (some "ValidationCodeHash"), []⟩, ⟨none, 163, (some "ParaId"), []⟩], 6, []⟩, ⟨"PvfCheckRejected", [⟨none, 302, (some "ValidationCodeHash"), []⟩, ⟨none, 163, (some "ParaId"), []⟩], 7, []⟩], []⟩,
   ⟨["polkadot_runtime_parachains", "hrmp", "pallet", "Event"], [("T", none)], .variant [⟨"OpenChannelRequested", [⟨(some "sender"), 163, (some "ParaId"), []⟩, ⟨(some "recipient"), 163, (some "ParaId"), []⟩, ⟨(some "proposed_max_capacity"), 4, (some "u32"), []⟩, ⟨(some "proposed_max_message_size"), 4, (some "u32"), []⟩], 0, []⟩, ⟨"OpenChannelCanceled", [⟨(some "by_parachain"), 163, (some "ParaId"), []⟩, ⟨(some "channel_id"), 326, (some "HrmpChannelId"), []⟩], 1, []⟩, ⟨"OpenChannelAccepted", [⟨(some "sender"), 163, (some "ParaId"), []⟩, ⟨(some "recipient"), 163, (some "ParaId"), []⟩], 2, []⟩, ⟨"ChannelClosed", [⟨(some "by_parachain"), 163, (some "ParaId"), []⟩, ⟨(some "channel_id"), 326, (some "HrmpChannelId"), []⟩], 3, []⟩, ⟨"HrmpChannelForceOpened", [⟨(some "sender"), 163, (some "ParaId"), []⟩, ⟨(some "recipient"), 163, (some "ParaId"), []⟩, ⟨(some "proposed_max_capacity"), 4, (some "u32"), []⟩, ⟨(some "proposed_max_message_size"), 4, (some "u32"), []⟩], 4, []⟩, ⟨"HrmpSystemChannelOpened", [⟨(some "sender"), 163, (some "ParaId"), []⟩, ⟨(some "recipient"), 163, (some "ParaId"), []⟩, ⟨(some "proposed_max_capacity"), 4, (some "u32"), []⟩, ⟨(some "proposed_max_message_size"), 4, (some "u32"), []⟩], 5, []⟩, ⟨"OpenChannelDepositsUpdated", [⟨(some "sender"), 163, (some "ParaId"), []⟩, ⟨(some "recipient"), 163, (some "ParaId"), []⟩], 6, []⟩], []⟩]

/-- Types 480 to 511 of `for_tests/polkadot1003003_v15`. -/
def types15 : List Typ :=
  [⟨["polkadot_runtime_parachains", "disputes", "pallet", "Event"], [("T", none)], .variant [⟨"DisputeInitiated", [⟨none, 315, (some "CandidateHash"), []⟩, ⟨none, 481, (some "DisputeLocation"), []⟩], 0, []⟩, ⟨"DisputeConcluded", [⟨none, 315, (some "CandidateHash"), []⟩, ⟨none, 482, (some "DisputeResult"), []⟩], 1, []⟩, ⟨"Revert", [⟨none, 4, (some "BlockNumberFor<T>"), []⟩], 2, []⟩], []⟩,
   ⟨["polkadot_runtime_parachains", "disputes", "DisputeLocation"], [], .variant [⟨"Local", [], 0, []⟩, ⟨"Remote", [], 1, []⟩], []⟩,
   ⟨["polkadot_runtime_parachains", "disputes", "DisputeResult"], [], .variant [⟨"Valid", [], 0, []⟩, ⟨"Invalid", [], 1, []⟩], []⟩,
   ⟨["polkadot_runtime_parachains", "assigner_on_demand", "pallet", "Event"], [("T", none)], .variant [⟨"OnDemandOrderPlaced", [⟨(some "para_id"), 163, (some "ParaId"), []⟩, ⟨(some "spot_price"), 6, (some "BalanceOf<T>"), []⟩, ⟨(some "ordered_by"), 0, (some "T::AccountId"), []⟩], 0, []⟩, ⟨"SpotPriceSet", [⟨(some "spot_price"), 6, (some "BalanceOf<T>"), []⟩], 1, []⟩], []⟩,
   ⟨["polkadot_runtime_common", "paras_registrar", "pallet", "Event"], [("T", none)], .variant [⟨"Registered", [⟨(some "para_id"), 163, (some "ParaId"), []⟩, ⟨(some "manager"), 0, (some "T::AccountId"), []⟩], 0, []⟩, ⟨"Deregistered", [⟨(some "para_id"), 163, (some "ParaId"), []⟩], 1, []⟩, ⟨"Reserved", [⟨(some "para_id"), 163, (some "ParaId"), []⟩, ⟨(some "who"), 0, (some "T::AccountId"), []⟩], 2, []⟩, ⟨"Swapped", [⟨(some "para_id"), 163, (some "ParaId"), []⟩, ⟨(some "other_id"), 163, (some "ParaId"), []⟩], 3, []⟩], []⟩,
   ⟨["polkadot_runtime_common", "slots", "pallet", "Event"], [("T", none)], .variant [⟨"NewLeasePeriod", [⟨(some "lease_period"), 4, (some "LeasePeriodOf<T>"), []⟩], 0, []⟩, ⟨"Leased", [⟨(some "para_id"), 163, (some "ParaId"), []⟩, ⟨(some "leaser"), 0, (some "T::AccountId"), []⟩, ⟨(some "period_begin"), 4, (some "LeasePeriodOf<T>"), []⟩, ⟨(some "period_count"), 4, (some "LeasePeriodOf<T>"), []⟩, ⟨(some "extra_reserved"), 6, (some "BalanceOf<T>"), []⟩, ⟨(some "total_amount"), 6, (some "BalanceOf<T>"), []⟩], 1, []⟩], []⟩,
   ⟨["polkadot_runtime_common", "auctions", "pallet", "Event"], [("T", none)], .variant [⟨"AuctionStarted", [⟨(some "auction_index"), 4, (some "AuctionIndex"), []⟩, ⟨(some "lease_period"), 4, (some "LeasePeriodOf<T>"), []⟩, ⟨(some "ending"), 4, (some "BlockNumberFor<T>"), []⟩], 0, []⟩, ⟨"AuctionClosed", [⟨(some "auction_index"), 4, (some "AuctionIndex"), []⟩], 1, []⟩, ⟨"Reserved", [⟨(some "bidder"), 0, (some "T::AccountId"), []⟩, ⟨(some "extra_reserved"), 6, (some "BalanceOf<T>"), []⟩, ⟨(some "total_amount"), 6, (some "BalanceOf<T>"), []⟩], 2, []⟩, ⟨"Unreserved", [⟨(some "bidder"), 0, (some "T::AccountId"), []⟩, ⟨(some "amount"), 6, (some "BalanceOf<T>"), []⟩], 3, []⟩, ⟨"ReserveConfiscated", [⟨(some "para_id"), 163, (some "ParaId"), []⟩, ⟨(some "leaser"), 0, (some "T::AccountId"), []⟩, ⟨(some "amount"), 6, (some "BalanceOf<T>"), []⟩], 4, []⟩, ⟨"BidAccepted", [⟨(some "bidder"), 0, (some "T::AccountId"), []⟩, ⟨(some "para_id"), 163, (some "ParaId"), []⟩, ⟨(some "amount"), 6, (some "BalanceOf<T>"), []⟩, ⟨(some "first_slot"), 4, (some "LeasePeriodOf<T>"), []⟩, ⟨(some "last_slot"), 4, (some "LeasePeriodOf<T>"), []⟩], 5, []⟩, ⟨"WinningOffset", [⟨(some "auction_index"), 4, (some "AuctionIndex"), []⟩, ⟨(some "block_number"), 4, (some "BlockNumberFor<T>"), []⟩], 6, []⟩], []⟩,
   ⟨["polkadot_runtime_common", "crowdloan", "pallet", "Event"], [("T", none)], .variant [⟨"Created", [⟨(some "para_id"), 163, (some "ParaId"), []⟩], 0, []⟩, ⟨"Contributed", [⟨(some "who"), 0, (some "T::AccountId"), []⟩, ⟨(some "fund_index"), 163, (some "ParaId"), []⟩, ⟨(some "amount"), 6, (some "BalanceOf<T>"), []⟩], 1, []⟩, ⟨"Withdrew", [⟨(some "who"), 0, (some "T::AccountId"), []⟩, ⟨(some "fund_index"), 163, (some "ParaId"), []⟩, ⟨(some "amount"), 6, (some "BalanceOf<T>"), []⟩], 2, []⟩, ⟨"PartiallyRefunded", [⟨(some "para_id"), 163, (some "ParaId"), []⟩], 3, []⟩, ⟨"AllRefunded", [⟨(some "para_id"), 163, (some "ParaId"), []⟩], 4, []⟩, ⟨"Dissolved", [⟨(some "para_id"), 163, (some "ParaId"), []⟩], 5, []⟩, ⟨"HandleBidResult", [⟨(some "para_id"), 163, (some "ParaId"), []⟩, ⟨(some "result"), 34, (some "DispatchResult"), []⟩], 6, []⟩, ⟨"Edited", [⟨(some "para_id"), 163, (some "ParaId"), []⟩], 7, []⟩, ⟨"MemoUpdated", [⟨(some "who"), 0, (some "T::AccountId"), []⟩, ⟨(some "para_id"), 163, (some "ParaId"), []⟩, ⟨(some "memo"), 14, (some "Vec<u8>"), []⟩], 8, []⟩, ⟨"AddedToNewRaise", [⟨(some "para_id"), 163, (some "ParaId"), []⟩], 9, []⟩], []⟩,
   ⟨["polkadot_runtime_parachains", "coretime", "pallet", "Event"], [("T", none)], .variant [⟨"RevenueInfoRequested", [⟨(some "when"), 4, (some "BlockNumberFor<T>"), []⟩], 0, []⟩, ⟨"CoreAssigned", [⟨(some "core"), 476, (some "CoreIndex"), []⟩], 1, []⟩], []⟩,
   ⟨["pallet_state_trie_migration", "pallet", "Event"], [("T", none)], .variant [⟨"Migrated", [⟨(some "top"), 4, (some "u32"), []⟩, ⟨(some "child"), 4, (some "u32"), []⟩, ⟨(some "compute"), 490, (some "MigrationCompute"), []⟩], 0, []⟩, ⟨"Slashed", [⟨(some "who"), 0, (some "T::AccountId"), []⟩, ⟨(some "amount"), 6, (some "BalanceOf<T>"), []⟩], 1, []⟩, ⟨"AutoMigrationFinished", [], 2, []⟩, ⟨"Halted", [⟨(some "error"), 491, (some "Error<T>"), []⟩], 3, []⟩], []⟩,
   ⟨["pallet_state_trie_migration", "pallet", "MigrationCompute"], [], .variant [⟨"Signed", [], 0, []⟩, ⟨"Auto", [], 1, []⟩], []⟩,
   ⟨["pallet_state_trie_migration", "pallet", "Error"], [("T", none)], .variant [⟨"MaxSignedLimits", [], 0, []⟩, ⟨"KeyTooLong", [], 1, []⟩, ⟨"NotEnoughFunds", [], 2, []⟩, ⟨"BadWitness", [], 3, []⟩, ⟨"SignedMigrationNotAllowed", [], 4, []⟩, ⟨"BadChildRoot", [], 5, []⟩], []⟩,
   ⟨["pallet_xcm", "pallet", "Event"], [("T", none)], .variant [⟨"Attempted", [⟨(some "outcome"), 493, (some "xcm::latest::Outcome"), []⟩], 0, []⟩, ⟨"Sent", [⟨(some "origin"), 67, (some "Location"), []⟩, ⟨(some "destination"), 67, (some "Location"), []⟩, ⟨(some "message"), 400, (some "Xcm<()>"), []⟩, ⟨(some "message_id"), 1, (some "XcmHash"), []⟩], 1, []⟩, ⟨"UnexpectedResponse", [⟨(some "origin"), 67, (some "Location"), []⟩, ⟨(some "query_id"), 12, (some "QueryId"), []⟩], 2, []⟩, ⟨"ResponseReady", [⟨(some "query_id"), 12, (some "QueryId"), []⟩, ⟨(some "response"), 408, (some "Response"), []⟩], 3, []⟩, ⟨"Notified", [⟨(some "query_id"), 12, (some "QueryId"), []⟩, ⟨(some "pallet_index"), 2, (some "u8"), []⟩, ⟨(some "call_index"), 2, (some "u8"), []⟩], 4, []⟩, ⟨"NotifyOverweight", [⟨(some "query_id"), 12, (some "QueryId"), []⟩, ⟨(some "pallet_index"), 2, (some "u8"), []⟩, ⟨(some "call_index"), 2, (some "u8"), []⟩, ⟨(some "actual_weight"), 10, (some "Weight"), []⟩, ⟨(some "max_budgeted_weight"), 10, (some "Weight"), []⟩], 5, []⟩, ⟨"NotifyDispatchError", [⟨(some "query_id"), 12, (some "QueryId"), []⟩, ⟨(some "pallet_index"), 2, (some "u8"), []⟩, ⟨(some "call_index"), 2, (some "u8"), []⟩], 6, []⟩, ⟨"NotifyDecodeFailed", [⟨(some "query_id"), 12, (some "QueryId"), []⟩, ⟨(some "pallet_index"), 2, (some "u8"), []⟩, ⟨(some "call_index"), 2, (some "u8"), []⟩], 7, []⟩, ⟨"InvalidResponder", [⟨(some "origin"), 67, (some "Location"), []⟩, ⟨(some "query_id"), 12, (some "QueryId"), []⟩, ⟨(some "expected_location"), 413, (some "Option<Location>"), []⟩], 8, []⟩, ⟨"InvalidResponderVersion", [⟨(some "origin"), 67, (some "Location"), []⟩, ⟨(some "query_id"), 12, (some "QueryId"), []⟩], 9, []⟩, ⟨"ResponseTaken", [⟨(some "query_id"), 12, (some "QueryId"), []⟩], 10, []⟩, ⟨"AssetsTrapped", [⟨(some "hash"), 13, (some "H256"), []⟩, ⟨(some "origin"), 67, (some "Location"), []⟩, ⟨(some "assets"), 418, (some "VersionedAssets"), []⟩], 11, []⟩, ⟨"VersionChangeNotified", [⟨(some "destination"), 67, (some "Location"), []⟩, ⟨(some "result"), 4, (some "XcmVersion"), []⟩, ⟨(some "cost"), 403, (some "Assets"), []⟩, ⟨(some "message_id"), 1, (some "XcmHash"), []⟩], 12, []⟩, ⟨"SupportedVersionChanged", [⟨(some "location"), 67, (some "Location"), []⟩, ⟨(some "version"), 4, (some "XcmVersion"), []⟩], 13, []⟩, ⟨"NotifyTargetSendFail", [⟨(some "location"), 67, (some "Location"), []⟩, ⟨(some "query_id"), 12, (some "QueryId"), []⟩, ⟨(some "error"), 386, (some "XcmError"), []⟩], 14, []⟩, ⟨"NotifyTargetMigrationFail", [⟨(some "location"), 81, (some "VersionedLocation"), []⟩, ⟨(some "query_id"), 12, (some "QueryId"), []⟩], 15, []⟩, ⟨"InvalidQuerierVersion", [⟨(some "origin"), 67, (some "Location"), []⟩, ⟨(some "query_id"), 12, (some "QueryId"), []⟩], 16, []⟩, ⟨"InvalidQuerier", [⟨(some "origin"), 67, (some "Location"), []⟩, ⟨(some "query_id"), 12, (some "QueryId"), []⟩, ⟨(some "expected_querier"), 67, (some "Location"), []⟩, ⟨(some "maybe_actual_querier"), 413, (some "Option<Location>"), []⟩], 17, []⟩, ⟨"VersionNotifyStarted", [⟨(some "destination"), 67, (some "Location"), []⟩, ⟨(some "cost"), 403, (some "Assets"), []⟩, ⟨(some "message_id"), 1, (some "XcmHash"), []⟩], 18, []⟩, ⟨"VersionNotifyRequested", [⟨(some "destination"), 67, (some "Location"), []⟩, ⟨(some "cost"), 403, (some "Assets"), []⟩, ⟨(some "message_id"), 1, (some "XcmHash"), []⟩], 19, []⟩, ⟨"VersionNotifyUnrequested", [⟨(some "destination"), 67, (some "Location"), []⟩, ⟨(some "cost"), 403, (some "Assets"), []⟩, ⟨(some "message_id"), 1, (some "XcmHash"), []⟩], 20, []⟩, ⟨"FeesPaid", [⟨(some "paying"), 67, (some "Location"), []⟩, ⟨(some "fees"), 403, (some "Assets"), []⟩], 21, []⟩, ⟨"AssetsClaimed", [⟨(some "hash"), 13, (some "H256"), []⟩, ⟨(some "origin"), 67, (some "Location"), []⟩, ⟨(some "assets"), 418, (some "VersionedAssets"), []⟩], 22, []⟩, ⟨"VersionMigrationFinished", [⟨(some "version"), 4, (some "XcmVersion"), []⟩], 23, []⟩], []⟩,
   ⟨["staging_xcm", "v4", "traits", "Outcome"], [], .variant [⟨"Complete", [⟨(some "used"), 10, (some "Weight"), []⟩], 0, []⟩, ⟨"Incomplete", [⟨(some "used"), 10, (some "Weight"), []⟩, ⟨(some "error"), 386, (some "Error"), []⟩], 1, []⟩, ⟨"Error", [⟨(some "error"), 386, (some "Error"), []⟩], 2, []⟩], []⟩,
   ⟨["pallet_message_queue", "pallet", "Event"], [("T", none)], .variant [⟨"ProcessingFailed", [⟨(some "id"), 13, (some "H256"), []⟩, ⟨(some "origin"), 433, (some "MessageOriginOf<T>"), []⟩, ⟨(some "error"), 495, (some "ProcessMessageError"), []⟩], 0, []⟩, ⟨"Processed", [⟨(some "id"), 13, (some "H256"), []⟩, ⟨(some "origin"), 433, (some "MessageOriginOf<T>"), []⟩, ⟨(some "weight_used"), 10, (some "Weight"), []⟩, ⟨(some "success"), 8, (some "bool"), []⟩], 1, []⟩, ⟨"OverweightEnqueued", [⟨(some "id"), 1, (some "[u8; 32]"), []⟩, ⟨(some "origin"), 433, (some "MessageOriginOf<T>"), []⟩, ⟨(some "page_index"), 4, (some "PageIndex"), []⟩, ⟨(some "message_index"), 4, (some "T::Size"), []⟩], 2, []⟩, ⟨"PageReaped", [⟨(some "origin"), 433, (some "MessageOriginOf<T>"), []⟩, ⟨(some "index"), 4, (some "PageIndex"), []⟩], 3, []⟩], []⟩,
   ⟨["frame_support", "traits", "messages", "ProcessMessageError"], [], .variant [⟨"BadFormat", [], 0, []⟩, ⟨"Corrupt", [], 1, []⟩, ⟨"Unsupported", [], 2, []⟩, ⟨"Overweight", [⟨none, 10, (some "Weight"), []⟩], 3, []⟩, ⟨"Yield", [], 4, []⟩, ⟨"StackLimitReached", [], 5, []⟩], []⟩,
   ⟨["pallet_asset_rate", "pallet", "Event"], [("T", none)], .variant [⟨"AssetRateCreated", [⟨(some "asset_kind"), 55, (some "T::AssetKind"), []⟩, ⟨(some "rate"), 436, (some "FixedU128"), []⟩], 0, []⟩, ⟨"AssetRateRemoved", [⟨(some "asset_kind"), 55, (some "T::AssetKind"), []⟩], 1, []⟩, ⟨"AssetRateUpdated", [⟨(some "asset_kind"), 55, (some "T::AssetKind"), []⟩, ⟨(some "old"), 436, (some "FixedU128"), []⟩, ⟨(some "new"), 436, (some "FixedU128"), []⟩], 2, []⟩], []⟩,
   ⟨["frame_system", "Phase"], [], .variant [⟨"ApplyExtrinsic", [⟨none, 4, (some "u32"), []⟩], 0, []⟩, ⟨"Finalization", [], 1, []⟩, ⟨"Initialization", [], 2, []⟩], []⟩,
   ⟨[], [], .sequence 32, []⟩,
   ⟨["frame_system", "LastRuntimeUpgradeInfo"], [], .composite [⟨(some "spec_version"), 59, (some "codec::Compact<u32>"), []⟩, ⟨(some "spec_name"), 500, (some "sp_runtime::RuntimeString"), []⟩], []⟩,
   ⟨[], [], .primitive .str, []⟩,
   ⟨["frame_system", "CodeUpgradeAuthorization"], [("T", none)], .composite [⟨(some "code_hash"), 13, (some "T::Hash"), []⟩, ⟨(some "check_version"), 8, (some "bool"), []⟩], []⟩,
   ⟨["frame_system", "limits", "BlockWeights"], [], .composite [⟨(some "base_block"), 10, (some "Weight"), []⟩, ⟨(some "max_block"), 10, (some "Weight"), []⟩, ⟨(some "per_class"), 503, (some "PerDispatchClass<WeightsPerClass>"), []⟩], []⟩,
   ⟨["frame_support", "dispatch", "PerDispatchClass"], [("T", (some 504))], .composite [⟨(some "normal"), 504, (some "T"), []⟩, ⟨(some "operational"), 504, (some "T"), []⟩, ⟨(some "mandatory"), 504, (some "T"), []⟩], []⟩,
   ⟨["frame_system", "limits", "WeightsPerClass"], [], .composite [⟨(some "base_extrinsic"), 10, (some "Weight"), []⟩, ⟨(some "max_extrinsic"), 452, (some "Option<Weight>"), []⟩, ⟨(some "max_total"), 452, (some "Option<Weight>"), []⟩, ⟨(some "reserved"), 452, (some "Option<Weight>"), []⟩], []⟩,
   ⟨["frame_system", "limits", "BlockLength"], [], .composite [⟨(some "max"), 506, (some "PerDispatchClass<u32>"), []⟩], []⟩,
   ⟨["frame_support", "dispatch", "PerDispatchClass"], [("T", (some 4))], .composite [⟨(some "normal"), 4, (some "T"), []⟩, ⟨(some "operational"), 4, (some "T"), []⟩, ⟨(some "mandatory"), 4, (some "T"), []⟩], []⟩,
   ⟨["sp_weights", "RuntimeDbWeight"], [], .composite [⟨(some "read"), 12, (some "u64"), []⟩, ⟨(some "write"), 12, (some "u64"), []⟩], []⟩,
   ⟨["sp_version", "RuntimeVersion"], [], .composite [⟨(some "spec_name"), 500, (some "RuntimeString"), []⟩, ⟨(some "impl_name"), 500, (some "RuntimeString"), []⟩, ⟨(some "authoring_version"), 4, (some "u32"), []⟩, ⟨(some "spec_version"), 4, (some "u32"), []⟩, ⟨(some "impl_version"), 4, (some "u32"), []⟩, ⟨(some "apis"), 509, (some "ApisVec"), []⟩, ⟨(some "transaction_version"), 4, (some "u32"), []⟩, ⟨(some "state_version"), 2, (some "u8"), []⟩], []⟩,
   ⟨["Cow"], [("T", (some 510))], .composite [⟨none, 510, none, []⟩], []⟩,
   ⟨[], [], .sequence 511, []⟩,
   ⟨[], [], .tuple [364, 4], []⟩]

/-- Types 512 to 543 of `for_tests/polkadot1003003_v15`. -/
def types16 : List Typ :=
  [⟨["frame_system", "pallet", "Error"], [("T", none)], .variant [⟨"InvalidSpecName", [], 0, []⟩, ⟨"SpecVersionNeedsToIncrease", [], 1, []⟩, ⟨"FailedToExtractRuntimeVersion", [], 2, []⟩, ⟨"NonDefaultComposite", [], 3, []⟩, ⟨"NonZeroRefCount", [], 4, []⟩, ⟨"CallFiltered", [], 5, []⟩, ⟨"MultiBlockMigrationsOngoing", [], 6, []⟩, ⟨"NothingAuthorized", [], 7, []⟩, ⟨"Unauthorized", [], 8, []⟩], []⟩,
   ⟨["bounded_collections", "bounded_vec", "BoundedVec"], [("T", (some 514)), ("S", none)], .composite [⟨none, 516, (some "Vec<T>"), []⟩], []⟩,
   ⟨["Option"], [("T", (some 515))], .variant [⟨"None", [], 0, []⟩, ⟨"Some", [⟨none, 515, none, []⟩], 1, []⟩], []⟩,
   ⟨["pallet_scheduler", "Scheduled"], [("Name", (some 1)), ("Call", (some 92)), ("BlockNumber", (some 4)), ("PalletsOrigin", (some 159)), ("AccountId", (some 0))], .composite [⟨(some "maybe_id"), 33, (some "Option<Name>"), []⟩, ⟨(some "priority"), 2, (some "schedule::Priority"), []⟩, ⟨(some "call"), 92, (some "Call"), []⟩, ⟨(some "maybe_periodic"), 99, (some "Option<schedule::Period<BlockNumber>>"), []⟩, ⟨(some "origin"), 159, (some "PalletsOrigin"), []⟩], []⟩,
   ⟨[], [], .sequence 514, []⟩,
   ⟨["pallet_scheduler", "RetryConfig"], [("Period", (some 4))], .composite [⟨(some "total_retries"), 2, (some "u8"), []⟩, ⟨(some "remaining"), 2, (some "u8"), []⟩, ⟨(some "period"), 4, (some "Period"), []⟩], []⟩,
   ⟨["pallet_scheduler", "pallet", "Error"], [("T", none)], .variant [⟨"FailedToSchedule", [], 0, []⟩, ⟨"NotFound", [], 1, []⟩, ⟨"TargetBlockNumberInPast", [], 2, []⟩, ⟨"RescheduleNoChange", [], 3, []⟩, ⟨"Named", [], 4, []⟩], []⟩,
   ⟨["pallet_preimage", "OldRequestStatus"], [("AccountId", (some 0)), ("Balance", (some 6))], .variant [⟨"Unrequested", [⟨(some "deposit"), 260, (some "(AccountId, Balance)"), []⟩, ⟨(some "len"), 4, (some "u32"), []⟩], 0, []⟩, ⟨"Requested", [⟨(some "deposit"), 520, (some "Option<(AccountId, Balance)>"), []⟩, ⟨(some "count"), 4, (some "u32"), []⟩, ⟨(some "len"), 152, (some "Option<u32>"), []⟩], 1, []⟩], []⟩,
   ⟨["Option"], [("T", (some 260))], .variant [⟨"None", [], 0, []⟩, ⟨"Some", [⟨none, 260, none, []⟩], 1, []⟩], []⟩,
   ⟨["pallet_preimage", "RequestStatus"], [("AccountId", (some 0)), ("Ticket", (some 522))], .variant [⟨"Unrequested", [⟨(some "ticket"), 523, (some "(AccountId, Ticket)"), []⟩, ⟨(some "len"), 4, (some "u32"), []⟩], 0, []⟩, ⟨"Requested", [⟨(some "maybe_ticket"), 524, (some "Option<(AccountId, Ticket)>"), []⟩, ⟨(some "count"), 4, (some "u32"), []⟩, ⟨(some "maybe_len"), 152, (some "Option<u32>"), []⟩], 1, []⟩], []⟩,
   ⟨["frame_support", "traits", "tokens", "fungible", "HoldConsideration"], [("A", none), ("F", none), ("R", none), ("D", none), ("Fp", none)], .composite [⟨none, 6, (some "F::Balance"), []⟩], []⟩,
   ⟨[], [], .tuple [0, 522], []⟩,
   ⟨["Option"], [("T", (some 523))], .variant [⟨"None", [], 0, []⟩, ⟨"Some", [⟨none, 523, none, []⟩], 1, []⟩], []⟩,
   ⟨[], [], .tuple [13, 4], []⟩,
   ⟨["bounded_collections", "bounded_vec", "BoundedVec"], [("T", (some 2)), ("S", none)], .composite [⟨none, 14, (some "Vec<T>"), []⟩], []⟩,
   ⟨["pallet_preimage", "pallet", "Error"], [("T", none)], .variant [⟨"TooBig", [], 0, []⟩, ⟨"AlreadyNoted", [], 1, []⟩, ⟨"NotAuthorized", [], 2, []⟩, ⟨"NotNoted", [], 3, []⟩, ⟨"Requested", [], 4, []⟩, ⟨"NotRequested", [], 5, []⟩, ⟨"TooMany", [], 6, []⟩, ⟨"TooFew", [], 7, []⟩, ⟨"NoCost", [], 8, []⟩], []⟩,
   ⟨["bounded_collections", "weak_bounded_vec", "WeakBoundedVec"], [("T", (some 529)), ("S", none)], .composite [⟨none, 530, (some "Vec<T>"), []⟩], []⟩,
   ⟨[], [], .tuple [105, 12], []⟩,
   ⟨[], [], .sequence 529, []⟩,
   ⟨["bounded_collections", "bounded_vec", "BoundedVec"], [("T", (some 1)), ("S", none)], .composite [⟨none, 532, (some "Vec<T>"), []⟩], []⟩,
   ⟨[], [], .sequence 1, []⟩,
   ⟨["Option"], [("T", (some 534))], .variant [⟨"None", [], 0, []⟩, ⟨"Some", [⟨none, 534, none, []⟩], 1, []⟩], []⟩,
   ⟨["sp_consensus_babe", "digests", "PreDigest"], [], .variant [⟨"Primary", [⟨none, 535, (some "PrimaryPreDigest"), []⟩], 1, []⟩, ⟨"SecondaryPlain", [⟨none, 537, (some "SecondaryPlainPreDigest"), []⟩], 2, []⟩, ⟨"SecondaryVRF", [⟨none, 538, (some "SecondaryVRFPreDigest"), []⟩], 3, []⟩], []⟩,
   ⟨["sp_consensus_babe", "digests", "PrimaryPreDigest"], [], .composite [⟨(some "authority_index"), 4, (some "super::AuthorityIndex"), []⟩, ⟨(some "slot"), 106, (some "Slot"), []⟩, ⟨(some "vrf_signature"), 536, (some "VrfSignature"), []⟩], []⟩,
   ⟨["sp_core", "sr25519", "vrf", "VrfSignature"], [], .composite [⟨(some "pre_output"), 1, (some "VrfPreOutput"), []⟩, ⟨(some "proof"), 146, (some "VrfProof"), []⟩], []⟩,
   ⟨["sp_consensus_babe", "digests", "SecondaryPlainPreDigest"], [], .composite [⟨(some "authority_index"), 4, (some "super::AuthorityIndex"), []⟩, ⟨(some "slot"), 106, (some "Slot"), []⟩], []⟩,
   ⟨["sp_consensus_babe", "digests", "SecondaryVRFPreDigest"], [], .composite [⟨(some "authority_index"), 4, (some "super::AuthorityIndex"), []⟩, ⟨(some "slot"), 106, (some "Slot"), []⟩, ⟨(some "vrf_signature"), 536, (some "VrfSignature"), []⟩], []⟩,
   ⟨["sp_consensus_babe", "BabeEpochConfiguration"], [], .composite [⟨(some "c"), 109, (some "(u64, u64)"), []⟩, ⟨(some "allowed_slots"), 110, (some "AllowedSlots"), []⟩], []⟩,
   ⟨["bounded_collections", "bounded_vec", "BoundedVec"], [("T", (some 541)), ("S", none)], .composite [⟨none, 542, (some "Vec<T>"), []⟩], []⟩,
   ⟨[], [], .tuple [12, 4], []⟩,
   ⟨[], [], .sequence 541, []⟩,
   ⟨["pallet_babe", "pallet", "Error"], [("T", none)], .variant [⟨"InvalidEquivocationProof", [], 0, []⟩, ⟨"InvalidKeyOwnershipProof", [], 1, []⟩, ⟨"DuplicateOffenceReport", [], 2, []⟩, ⟨"InvalidConfiguration", [], 3, []⟩], []⟩]

/-- Types 544 to 575 of `for_tests/polkadot1003003_v15`. -/
def types17 : List Typ :=
  [⟨[], [], .tuple [0, 6, 8], []⟩,
   ⟨["pallet_indices", "pallet", "Error"], [("T", none)], .variant [⟨"NotAssigned", [], 0, []⟩, ⟨"NotOwner", [], 1, []⟩, ⟨"InUse", [], 2, []⟩, ⟨"NotTransfer", [], 3, []⟩, ⟨"Permanent", [], 4, []⟩], []⟩,
   ⟨["bounded_collections", "weak_bounded_vec", "WeakBoundedVec"], [("T", (some 547)), ("S", none)], .composite [⟨none, 549, (some "Vec<T>"), []⟩], []⟩,
   ⟨["pallet_balances", "types", "BalanceLock"], [("Balance", (some 6))], .composite [⟨(some "id"), 364, (some "LockIdentifier"), []⟩, ⟨(some "amount"), 6, (some "Balance"), []⟩, ⟨(some "reasons"), 548, (some "Reasons"), []⟩], []⟩,
   ⟨["pallet_balances", "types", "Reasons"], [], .variant [⟨"Fee", [], 0, []⟩, ⟨"Misc", [], 1, []⟩, ⟨"All", [], 2, []⟩], []⟩,
   ⟨[], [], .sequence 547, []⟩,
   ⟨["bounded_collections", "bounded_vec", "BoundedVec"], [("T", (some 551)), ("S", none)], .composite [⟨none, 552, (some "Vec<T>"), []⟩], []⟩,
   ⟨["pallet_balances", "types", "ReserveData"], [("ReserveIdentifier", (some 364)), ("Balance", (some 6))], .composite [⟨(some "id"), 364, (some "ReserveIdentifier"), []⟩, ⟨(some "amount"), 6, (some "Balance"), []⟩], []⟩,
   ⟨[], [], .sequence 551, []⟩,
   ⟨["bounded_collections", "bounded_vec", "BoundedVec"], [("T", (some 554)), ("S", none)], .composite [⟨none, 558, (some "Vec<T>"), []⟩], []⟩,
   ⟨["frame_support", "traits", "tokens", "misc", "IdAmount"], [("Id", (some 555)), ("Balance", (some 6))], .composite [⟨(some "id"), 555, (some "Id"), []⟩, ⟨(some "amount"), 6, (some "Balance"), []⟩], []⟩,
   ⟨["polkadot_runtime", "RuntimeHoldReason"], [], .variant [⟨"Preimage", [⟨none, 556, (some "pallet_preimage::HoldReason"), []⟩], 10, []⟩, ⟨"StateTrieMigration", [⟨none, 557, (some "pallet_state_trie_migration::HoldReason"), []⟩], 98, []⟩], []⟩,
   ⟨["pallet_preimage", "pallet", "HoldReason"], [], .variant [⟨"Preimage", [], 0, []⟩], []⟩,
   ⟨["pallet_state_trie_migration", "pallet", "HoldReason"], [], .variant [⟨"SlashForMigrate", [], 0, []⟩], []⟩,
   ⟨[], [], .sequence 554, []⟩,
   ⟨["bounded_collections", "bounded_vec", "BoundedVec"], [("T", (some 560)), ("S", none)], .composite [⟨none, 563, (some "Vec<T>"), []⟩], []⟩,
   ⟨["frame_support", "traits", "tokens", "misc", "IdAmount"], [("Id", (some 561)), ("Balance", (some 6))], .composite [⟨(some "id"), 561, (some "Id"), []⟩, ⟨(some "amount"), 6, (some "Balance"), []⟩], []⟩,
   ⟨["polkadot_runtime", "RuntimeFreezeReason"], [], .variant [⟨"NominationPools", [⟨none, 562, (some "pallet_nomination_pools::FreezeReason"), []⟩], 39, []⟩], []⟩,
   ⟨["pallet_nomination_pools", "pallet", "FreezeReason"], [], .variant [⟨"PoolMinBalance", [], 0, []⟩], []⟩,
   ⟨[], [], .sequence 560, []⟩,
   ⟨["pallet_balances", "pallet", "Error"], [("T", none), ("I", none)], .variant [⟨"VestingBalance", [], 0, []⟩, ⟨"LiquidityRestrictions", [], 1, []⟩, ⟨"InsufficientBalance", [], 2, []⟩, ⟨"ExistentialDeposit", [], 3, []⟩, ⟨"Expendability", [], 4, []⟩, ⟨"ExistingVestingSchedule", [], 5, []⟩, ⟨"DeadAccount", [], 6, []⟩, ⟨"TooManyReserves", [], 7, []⟩, ⟨"TooManyHolds", [], 8, []⟩, ⟨"TooManyFreezes", [], 9, []⟩, ⟨"IssuanceDeactivated", [], 10, []⟩, ⟨"DeltaZero", [], 11, []⟩], []⟩,
   ⟨["pallet_transaction_payment", "Releases"], [], .variant [⟨"V1Ancient", [], 0, []⟩, ⟨"V2", [], 1, []⟩], []⟩,
   ⟨["pallet_staking", "StakingLedger"], [("T", none)], .composite [⟨(some "stash"), 0, (some "T::AccountId"), []⟩, ⟨(some "total"), 63, (some "BalanceOf<T>"), []⟩, ⟨(some "active"), 63, (some "BalanceOf<T>"), []⟩, ⟨(some "unlocking"), 130, (some "BoundedVec<UnlockChunk<BalanceOf<T>>, T::MaxUnlockingChunks>"), []⟩, ⟨(some "legacy_claimed_rewards"), 567, (some "BoundedVec<EraIndex, T::HistoryDepth>"), []⟩], []⟩,
   ⟨["bounded_collections", "bounded_vec", "BoundedVec"], [("T", (some 4)), ("S", none)], .composite [⟨none, 121, (some "Vec<T>"), []⟩], []⟩,
   ⟨["pallet_staking", "Nominations"], [("T", none)], .composite [⟨(some "targets"), 569, (some "BoundedVec<T::AccountId, MaxNominationsOf<T>>"), []⟩, ⟨(some "submitted_in"), 4, (some "EraIndex"), []⟩, ⟨(some "suppressed"), 8, (some "bool"), []⟩], []⟩,
   ⟨["bounded_collections", "bounded_vec", "BoundedVec"], [("T", (some 0)), ("S", none)], .composite [⟨none, 116, (some "Vec<T>"), []⟩], []⟩,
   ⟨["pallet_staking", "ActiveEraInfo"], [], .composite [⟨(some "index"), 4, (some "EraIndex"), []⟩, ⟨(some "start"), 571, (some "Option<u64>"), []⟩], []⟩,
   ⟨["Option"], [("T", (some 12))], .variant [⟨"None", [], 0, []⟩, ⟨"Some", [⟨none, 12, none, []⟩], 1, []⟩], []⟩,
   ⟨[], [], .tuple [4, 0], []⟩,
   ⟨["sp_staking", "Exposure"], [("AccountId", (some 0)), ("Balance", (some 6))], .composite [⟨(some "total"), 63, (some "Balance"), []⟩, ⟨(some "own"), 63, (some "Balance"), []⟩, ⟨(some "others"), 574, (some "Vec<IndividualExposure<AccountId, Balance>>"), []⟩], []⟩,
   ⟨[], [], .sequence 575, []⟩,
   ⟨["sp_staking", "IndividualExposure"], [("AccountId", (some 0)), ("Balance", (some 6))], .composite [⟨(some "who"), 0, (some "AccountId"), []⟩, ⟨(some "value"), 63, (some "Balance"), []⟩], []⟩]

/-- Types 576 to 607 of `for_tests/polkadot1003003_v15`. -/
def types18 : List Typ :=
  [⟨["sp_staking", "PagedExposureMetadata"], [("Balance", (some 6))], .composite [⟨(some "total"), 63, (some "Balance"), []⟩, ⟨(some "own"), 63, (some "Balance"), []⟩, ⟨(some "nominator_count"), 4, (some "u32"), []⟩, ⟨(some "page_count"), 4, (some "Page"), []⟩], []⟩,
   ⟨[], [], .tuple [4, 0, 4], []⟩,
   ⟨["sp_staking", "ExposurePage"], [("AccountId", (some 0)), ("Balance", (some 6))], .composite [⟨(some "page_total"), 63, (some "Balance"), []⟩, ⟨(some "others"), 574, (some "Vec<IndividualExposure<AccountId, Balance>>"), []⟩], []⟩,
   ⟨["pallet_staking", "EraRewardPoints"], [("AccountId", (some 0))], .composite [⟨(some "total"), 4, (some "RewardPoint"), []⟩, ⟨(some "individual"), 580, (some "BTreeMap<AccountId, RewardPoint>"), []⟩], []⟩,
   ⟨["BTreeMap"], [("K", (some 0)), ("V", (some 4))], .composite [⟨none, 581, none, []⟩], []⟩,
   ⟨[], [], .sequence 582, []⟩,
   ⟨[], [], .tuple [0, 4], []⟩,
   ⟨[], [], .sequence 584, []⟩,
   ⟨["pallet_staking", "UnappliedSlash"], [("AccountId", (some 0)), ("Balance", (some 6))], .composite [⟨(some "validator"), 0, (some "AccountId"), []⟩, ⟨(some "own"), 6, (some "Balance"), []⟩, ⟨(some "others"), 259, (some "Vec<(AccountId, Balance)>"), []⟩, ⟨(some "reporters"), 116, (some "Vec<AccountId>"), []⟩, ⟨(some "payout"), 6, (some "Balance"), []⟩], []⟩,
   ⟨[], [], .tuple [43, 6], []⟩,
   ⟨["pallet_staking", "slashing", "SlashingSpans"], [], .composite [⟨(some "span_index"), 4, (some "SpanIndex"), []⟩, ⟨(some "last_start"), 4, (some "EraIndex"), []⟩, ⟨(some "last_nonzero_slash"), 4, (some "EraIndex"), []⟩, ⟨(some "prior"), 121, (some "Vec<EraIndex>"), []⟩], []⟩,
   ⟨["pallet_staking", "slashing", "SpanRecord"], [("Balance", (some 6))], .composite [⟨(some "slashed"), 6, (some "Balance"), []⟩, ⟨(some "paid_out"), 6, (some "Balance"), []⟩], []⟩,
   ⟨["pallet_staking", "pallet", "pallet", "Error"], [("T", none)], .variant [⟨"NotController", [], 0, []⟩, ⟨"NotStash", [], 1, []⟩, ⟨"AlreadyBonded", [], 2, []⟩, ⟨"AlreadyPaired", [], 3, []⟩, ⟨"EmptyTargets", [], 4, []⟩, ⟨"DuplicateIndex", [], 5, []⟩, ⟨"InvalidSlashIndex", [], 6, []⟩, ⟨"InsufficientBond", [], 7, []⟩, ⟨"NoMoreChunks", [], 8, []⟩, ⟨"NoUnlockChunk", [], 9, []⟩, ⟨"FundedTarget", [], 10, []⟩, ⟨"InvalidEraToReward", [], 11, []⟩, ⟨"InvalidNumberOfNominations", [], 12, []⟩, ⟨"NotSortedAndUnique", [], 13, []⟩, ⟨"AlreadyClaimed", [], 14, []⟩, ⟨"InvalidPage", [], 15, []⟩, ⟨"IncorrectHistoryDepth", [], 16, []⟩, ⟨"IncorrectSlashingSpans", [], 17, []⟩, ⟨"BadState", [], 18, []⟩, ⟨"TooManyTargets", [], 19, []⟩, ⟨"BadTarget", [], 20, []⟩, ⟨"CannotChillOther", [], 21, []⟩, ⟨"TooManyNominators", [], 22, []⟩, ⟨"TooManyValidators", [], 23, []⟩, ⟨"CommissionTooLow", [], 24, []⟩, ⟨"BoundNotMet", [], 25, []⟩, ⟨"ControllerDeprecated", [], 26, []⟩, ⟨"CannotRestoreLedger", [], 27, []⟩, ⟨"RewardDestinationRestricted", [], 28, []⟩, ⟨"NotEnoughFunds", [], 29, []⟩, ⟨"VirtualStakerNotAllowed", [], 30, []⟩], []⟩,
   ⟨["sp_staking", "offence", "OffenceDetails"], [("Reporter", (some 0)), ("Offender", (some 590))], .composite [⟨(some "offender"), 590, (some "Offender"), []⟩, ⟨(some "reporters"), 116, (some "Vec<Reporter>"), []⟩], []⟩,
   ⟨[], [], .tuple [0, 573], []⟩,
   ⟨[], [], .tuple [48, 14], []⟩,
   ⟨[], [], .sequence 593, []⟩,
   ⟨[], [], .tuple [0, 134], []⟩,
   ⟨[], [], .tuple [595, 14], []⟩,
   ⟨["sp_core", "crypto", "KeyTypeId"], [], .composite [⟨none, 18, (some "[u8; 4]"), []⟩], []⟩,
   ⟨["pallet_session", "pallet", "Error"], [("T", none)], .variant [⟨"InvalidProof", [], 0, []⟩, ⟨"NoAssociatedValidatorId", [], 1, []⟩, ⟨"DuplicatedKey", [], 2, []⟩, ⟨"NoKeys", [], 3, []⟩, ⟨"NoAccount", [], 4, []⟩], []⟩,
   ⟨["pallet_grandpa", "StoredState"], [("N", (some 4))], .variant [⟨"Live", [], 0, []⟩, ⟨"PendingPause", [⟨(some "scheduled_at"), 4, (some "N"), []⟩, ⟨(some "delay"), 4, (some "N"), []⟩], 1, []⟩, ⟨"Paused", [], 2, []⟩, ⟨"PendingResume", [⟨(some "scheduled_at"), 4, (some "N"), []⟩, ⟨(some "delay"), 4, (some "N"), []⟩], 3, []⟩], []⟩,
   ⟨["pallet_grandpa", "StoredPendingChange"], [("N", (some 4)), ("Limit", none)], .composite [⟨(some "scheduled_at"), 4, (some "N"), []⟩, ⟨(some "delay"), 4, (some "N"), []⟩, ⟨(some "next_authorities"), 599, (some "BoundedAuthorityList<Limit>"), []⟩, ⟨(some "forced"), 152, (some "Option<N>"), []⟩], []⟩,
   ⟨["bounded_collections", "weak_bounded_vec", "WeakBoundedVec"], [("T", (some 52)), ("S", none)], .composite [⟨none, 51, (some "Vec<T>"), []⟩], []⟩,
   ⟨["pallet_grandpa", "pallet", "Error"], [("T", none)], .variant [⟨"PauseFailed", [], 0, []⟩, ⟨"ResumeFailed", [], 1, []⟩, ⟨"ChangePending", [], 2, []⟩, ⟨"TooSoon", [], 3, []⟩, ⟨"InvalidKeyOwnershipProof", [], 4, []⟩, ⟨"InvalidEquivocationProof", [], 5, []⟩, ⟨"DuplicateOffenceReport", [], 6, []⟩], []⟩,
   ⟨["bounded_collections", "weak_bounded_vec", "WeakBoundedVec"], [("T", (some 137)), ("S", none)], .composite [⟨none, 602, (some "Vec<T>"), []⟩], []⟩,
   ⟨[], [], .sequence 137, []⟩,
   ⟨["pallet_treasury", "Proposal"], [("AccountId", (some 0)), ("Balance", (some 6))], .composite [⟨(some "proposer"), 0, (some "AccountId"), []⟩, ⟨(some "value"), 6, (some "Balance"), []⟩, ⟨(some "beneficiary"), 0, (some "AccountId"), []⟩, ⟨(some "bond"), 6, (some "Balance"), []⟩], []⟩,
   ⟨["bounded_collections", "bounded_vec", "BoundedVec"], [("T", (some 4)), ("S", none)], .composite [⟨none, 121, (some "Vec<T>"), []⟩], []⟩,
   ⟨["pallet_treasury", "SpendStatus"], [("AssetKind", (some 55)), ("AssetBalance", (some 6)), ("Beneficiary", (some 81)), ("BlockNumber", (some 4)), ("PaymentId", (some 12))], .composite [⟨(some "asset_kind"), 55, (some "AssetKind"), []⟩, ⟨(some "amount"), 6, (some "AssetBalance"), []⟩, ⟨(some "beneficiary"), 81, (some "Beneficiary"), []⟩, ⟨(some "valid_from"), 4, (some "BlockNumber"), []⟩, ⟨(some "expire_at"), 4, (some "BlockNumber"), []⟩, ⟨(some "status"), 606, (some "PaymentState<PaymentId>"), []⟩], []⟩,
   ⟨["pallet_treasury", "PaymentState"], [("Id", (some 12))], .variant [⟨"Pending", [], 0, []⟩, ⟨"Attempted", [⟨(some "id"), 12, (some "Id"), []⟩], 1, []⟩, ⟨"Failed", [], 2, []⟩], []⟩,
   ⟨["sp_arithmetic", "per_things", "Permill"], [], .composite [⟨none, 4, (some "u32"), []⟩], []⟩]

/-- Types 608 to 639 of `for_tests/polkadot1003003_v15`. -/
def types19 : List Typ :=
  [⟨["frame_support", "PalletId"], [], .composite [⟨none, 364, (some "[u8; 8]"), []⟩], []⟩,
   ⟨["pallet_treasury", "pallet", "Error"], [("T", none), ("I", none)], .variant [⟨"InvalidIndex", [], 0, []⟩, ⟨"TooManyApprovals", [], 1, []⟩, ⟨"InsufficientPermission", [], 2, []⟩, ⟨"ProposalNotApproved", [], 3, []⟩, ⟨"FailedToConvertBalance", [], 4, []⟩, ⟨"SpendExpired", [], 5, []⟩, ⟨"EarlyPayout", [], 6, []⟩, ⟨"AlreadyAttempted", [], 7, []⟩, ⟨"PayoutError", [], 8, []⟩, ⟨"NotAttempted", [], 9, []⟩, ⟨"Inconclusive", [], 10, []⟩], []⟩,
   ⟨[], [], .tuple [0, 91], []⟩,
   ⟨["pallet_conviction_voting", "vote", "Voting"], [("Balance", (some 6)), ("AccountId", (some 0)), ("BlockNumber", (some 4)), ("PollIndex", (some 4)), ("MaxVotes", none)], .variant [⟨"Casting", [⟨none, 612, (some "Casting<Balance, BlockNumber, PollIndex, MaxVotes>"), []⟩], 0, []⟩, ⟨"Delegating", [⟨none, 618, (some "Delegating<Balance, AccountId, BlockNumber>"), []⟩], 1, []⟩], []⟩,
   ⟨["pallet_conviction_voting", "vote", "Casting"], [("Balance", (some 6)), ("BlockNumber", (some 4)), ("PollIndex", (some 4)), ("MaxVotes", none)], .composite [⟨(some "votes"), 613, (some "BoundedVec<(PollIndex, AccountVote<Balance>), MaxVotes>"), []⟩, ⟨(some "delegations"), 616, (some "Delegations<Balance>"), []⟩, ⟨(some "prior"), 617, (some "PriorLock<BlockNumber, Balance>"), []⟩], []⟩,
   ⟨["bounded_collections", "bounded_vec", "BoundedVec"], [("T", (some 614)), ("S", none)], .composite [⟨none, 615, (some "Vec<T>"), []⟩], []⟩,
   ⟨[], [], .tuple [4, 154], []⟩,
   ⟨[], [], .sequence 614, []⟩,
   ⟨["pallet_conviction_voting", "types", "Delegations"], [("Balance", (some 6))], .composite [⟨(some "votes"), 6, (some "Balance"), []⟩, ⟨(some "capital"), 6, (some "Balance"), []⟩], []⟩,
   ⟨["pallet_conviction_voting", "vote", "PriorLock"], [("BlockNumber", (some 4)), ("Balance", (some 6))], .composite [⟨none, 4, (some "BlockNumber"), []⟩, ⟨none, 6, (some "Balance"), []⟩], []⟩,
   ⟨["pallet_conviction_voting", "vote", "Delegating"], [("Balance", (some 6)), ("AccountId", (some 0)), ("BlockNumber", (some 4))], .composite [⟨(some "balance"), 6, (some "Balance"), []⟩, ⟨(some "target"), 0, (some "AccountId"), []⟩, ⟨(some "conviction"), 156, (some "Conviction"), []⟩, ⟨(some "delegations"), 616, (some "Delegations<Balance>"), []⟩, ⟨(some "prior"), 617, (some "PriorLock<BlockNumber, Balance>"), []⟩], []⟩,
   ⟨["bounded_collections", "bounded_vec", "BoundedVec"], [("T", (some 620)), ("S", none)], .composite [⟨none, 621, (some "Vec<T>"), []⟩], []⟩,
   ⟨[], [], .tuple [91, 6], []⟩,
   ⟨[], [], .sequence 620, []⟩,
   ⟨["pallet_conviction_voting", "pallet", "Error"], [("T", none), ("I", none)], .variant [⟨"NotOngoing", [], 0, []⟩, ⟨"NotVoter", [], 1, []⟩, ⟨"NoPermission", [], 2, []⟩, ⟨"NoPermissionYet", [], 3, []⟩, ⟨"AlreadyDelegating", [], 4, []⟩, ⟨"AlreadyVoting", [], 5, []⟩, ⟨"InsufficientFunds", [], 6, []⟩, ⟨"NotDelegating", [], 7, []⟩, ⟨"Nonsense", [], 8, []⟩, ⟨"MaxVotesReached", [], 9, []⟩, ⟨"ClassNeeded", [], 10, []⟩, ⟨"BadClass", [], 11, []⟩], []⟩,
   ⟨["pallet_referenda", "types", "ReferendumInfo"], [("TrackId", (some 91)), ("RuntimeOrigin", (some 159)), ("Moment", (some 4)), ("Call", (some 92)), ("Balance", (some 6)), ("Tally", (some 448)), ("AccountId", (some 0)), ("ScheduleAddress", (some 32))], .variant [⟨"Ongoing", [⟨none, 624, (some "ReferendumStatus<TrackId, RuntimeOrigin, Moment, Call, Balance, Tally,\nAccountId, ScheduleAddress,>"), []⟩], 0, []⟩, ⟨"Approved", [⟨none, 4, (some "Moment"), []⟩, ⟨none, 626, (some "Option<Deposit<AccountId, Balance>>"), []⟩, ⟨none, 626, (some "Option<Deposit<AccountId, Balance>>"), []⟩], 1, []⟩, ⟨"Rejected", [⟨none, 4, (some "Moment"), []⟩, ⟨none, 626, (some "Option<Deposit<AccountId, Balance>>"), []⟩, ⟨none, 626, (some "Option<Deposit<AccountId, Balance>>"), []⟩], 2, []⟩, ⟨"Cancelled", [⟨none, 4, (some "Moment"), []⟩, ⟨none, 626, (some "Option<Deposit<AccountId, Balance>>"), []⟩, ⟨none, 626, (some "Option<Deposit<AccountId, Balance>>"), []⟩], 3, []⟩, ⟨"TimedOut", [⟨none, 4, (some "Moment"), []⟩, ⟨none, 626, (some "Option<Deposit<AccountId, Balance>>"), []⟩, ⟨none, 626, (some "Option<Deposit<AccountId, Balance>>"), []⟩], 4, []⟩, ⟨"Killed", [⟨none, 4, (some "Moment"), []⟩], 5, []⟩], []⟩,
   ⟨["pallet_referenda", "types", "ReferendumStatus"], [("TrackId", (some 91)), ("RuntimeOrigin", (some 159)), ("Moment", (some 4)), ("Call", (some 92)), ("Balance", (some 6)), ("Tally", (some 448)), ("AccountId", (some 0)), ("ScheduleAddress", (some 32))], .composite [⟨(some "track"), 91, (some "TrackId"), []⟩, ⟨(some "origin"), 159, (some "RuntimeOrigin"), []⟩, ⟨(some "proposal"), 92, (some "Call"), []⟩, ⟨(some "enactment"), 166, (some "DispatchTime<Moment>"), []⟩, ⟨(some "submitted"), 4, (some "Moment"), []⟩, ⟨(some "submission_deposit"), 625, (some "Deposit<AccountId, Balance>"), []⟩, ⟨(some "decision_deposit"), 626, (some "Option<Deposit<AccountId, Balance>>"), []⟩, ⟨(some "deciding"), 627, (some "Option<DecidingStatus<Moment>>"), []⟩, ⟨(some "tally"), 448, (some "Tally"), []⟩, ⟨(some "in_queue"), 8, (some "bool"), []⟩, ⟨(some "alarm"), 629, (some "Option<(Moment, ScheduleAddress)>"), []⟩], []⟩,
   ⟨["pallet_referenda", "types", "Deposit"], [("AccountId", (some 0)), ("Balance", (some 6))], .composite [⟨(some "who"), 0, (some "AccountId"), []⟩, ⟨(some "amount"), 6, (some "Balance"), []⟩], []⟩,
   ⟨["Option"], [("T", (some 625))], .variant [⟨"None", [], 0, []⟩, ⟨"Some", [⟨none, 625, none, []⟩], 1, []⟩], []⟩,
   ⟨["Option"], [("T", (some 628))], .variant [⟨"None", [], 0, []⟩, ⟨"Some", [⟨none, 628, none, []⟩], 1, []⟩], []⟩,
   ⟨["pallet_referenda", "types", "DecidingStatus"], [("BlockNumber", (some 4))], .composite [⟨(some "since"), 4, (some "BlockNumber"), []⟩, ⟨(some "confirming"), 152, (some "Option<BlockNumber>"), []⟩], []⟩,
   ⟨["Option"], [("T", (some 630))], .variant [⟨"None", [], 0, []⟩, ⟨"Some", [⟨none, 630, none, []⟩], 1, []⟩], []⟩,
   ⟨[], [], .tuple [4, 32], []⟩,
   ⟨["bounded_collections", "bounded_vec", "BoundedVec"], [("T", (some 632)), ("S", none)], .composite [⟨none, 633, (some "Vec<T>"), []⟩], []⟩,
   ⟨[], [], .tuple [4, 6], []⟩,
   ⟨[], [], .sequence 632, []⟩,
   ⟨[], [], .sequence 635, []⟩,
   ⟨[], [], .tuple [91, 636], []⟩,
   ⟨["pallet_referenda", "types", "TrackInfo"], [("Balance", (some 6)), ("Moment", (some 4))], .composite [⟨(some "name"), 500, (some "&'static str"), []⟩, ⟨(some "max_deciding"), 4, (some "u32"), []⟩, ⟨(some "decision_deposit"), 6, (some "Balance"), []⟩, ⟨(some "prepare_period"), 4, (some "Moment"), []⟩, ⟨(some "decision_period"), 4, (some "Moment"), []⟩, ⟨(some "confirm_period"), 4, (some "Moment"), []⟩, ⟨(some "min_enactment_period"), 4, (some "Moment"), []⟩, ⟨(some "min_approval"), 637, (some "Curve"), []⟩, ⟨(some "min_support"), 637, (some "Curve"), []⟩], []⟩,
   ⟨["pallet_referenda", "types", "Curve"], [], .variant [⟨"LinearDecreasing", [⟨(some "length"), 43, (some "Perbill"), []⟩, ⟨(some "floor"), 43, (some "Perbill"), []⟩, ⟨(some "ceil"), 43, (some "Perbill"), []⟩], 0, []⟩, ⟨"SteppedDecreasing", [⟨(some "begin"), 43, (some "Perbill"), []⟩, ⟨(some "end"), 43, (some "Perbill"), []⟩, ⟨(some "step"), 43, (some "Perbill"), []⟩, ⟨(some "period"), 43, (some "Perbill"), []⟩], 1, []⟩, ⟨"Reciprocal", [⟨(some "factor"), 638, (some "FixedI64"), []⟩, ⟨(some "x_offset"), 638, (some "FixedI64"), []⟩, ⟨(some "y_offset"), 638, (some "FixedI64"), []⟩], 2, []⟩], []⟩,
   ⟨["sp_arithmetic", "fixed_point", "FixedI64"], [], .composite [⟨none, 639, (some "i64"), []⟩], []⟩,
   ⟨[], [], .primitive .i64, []⟩]

/-- Types 640 to 671 of `for_tests/polkadot1003003_v15`. -/
def types20 : List Typ :=
  [⟨["pallet_referenda", "pallet", "Error"], [("T", none), ("I", none)], .variant [⟨"NotOngoing", [], 0, []⟩, ⟨"HasDeposit", [], 1, []⟩, ⟨"BadTrack", [], 2, []⟩, ⟨"Full", [], 3, []⟩, ⟨"QueueEmpty", [], 4, []⟩, ⟨"BadReferendum", [], 5, []⟩, ⟨"NothingToDo", [], 6, []⟩, ⟨"NoTrack", [], 7, []⟩, ⟨"Unfinished", [], 8, []⟩, ⟨"NoPermission", [], 9, []⟩, ⟨"NoDeposit", [], 10, []⟩, ⟨"BadStatus", [], 11, []⟩, ⟨"PreimageNotExist", [], 12, []⟩, ⟨"PreimageStoredWithDifferentLength", [], 13, []⟩], []⟩,
   ⟨["pallet_whitelist", "pallet", "Error"], [("T", none)], .variant [⟨"UnavailablePreImage", [], 0, []⟩, ⟨"UndecodableCall", [], 1, []⟩, ⟨"InvalidCallWeightWitness", [], 2, []⟩, ⟨"CallIsNotWhitelisted", [], 3, []⟩, ⟨"CallAlreadyWhitelisted", [], 4, []⟩], []⟩,
   ⟨["polkadot_runtime_common", "claims", "pallet", "Error"], [("T", none)], .variant [⟨"InvalidEthereumSignature", [], 0, []⟩, ⟨"SignerHasNoClaim", [], 1, []⟩, ⟨"SenderHasNoClaim", [], 2, []⟩, ⟨"PotUnderflow", [], 3, []⟩, ⟨"InvalidStatement", [], 4, []⟩, ⟨"VestedBalanceExists", [], 5, []⟩], []⟩,
   ⟨["bounded_collections", "bounded_vec", "BoundedVec"], [("T", (some 189)), ("S", none)], .composite [⟨none, 644, (some "Vec<T>"), []⟩], []⟩,
   ⟨[], [], .sequence 189, []⟩,
   ⟨["pallet_vesting", "Releases"], [], .variant [⟨"V0", [], 0, []⟩, ⟨"V1", [], 1, []⟩], []⟩,
   ⟨["pallet_vesting", "pallet", "Error"], [("T", none)], .variant [⟨"NotVesting", [], 0, []⟩, ⟨"AtMaxVestingSchedules", [], 1, []⟩, ⟨"AmountLow", [], 2, []⟩, ⟨"ScheduleIndexOutOfBounds", [], 3, []⟩, ⟨"InvalidScheduleParams", [], 4, []⟩], []⟩,
   ⟨["pallet_utility", "pallet", "Error"], [("T", none)], .variant [⟨"TooManyCalls", [], 0, []⟩], []⟩,
   ⟨[], [], .tuple [649, 6], []⟩,
   ⟨["bounded_collections", "bounded_vec", "BoundedVec"], [("T", (some 650)), ("S", none)], .composite [⟨none, 651, (some "Vec<T>"), []⟩], []⟩,
   ⟨["pallet_proxy", "ProxyDefinition"], [("AccountId", (some 0)), ("ProxyType", (some 194)), ("BlockNumber", (some 4))], .composite [⟨(some "delegate"), 0, (some "AccountId"), []⟩, ⟨(some "proxy_type"), 194, (some "ProxyType"), []⟩, ⟨(some "delay"), 4, (some "BlockNumber"), []⟩], []⟩,
   ⟨[], [], .sequence 650, []⟩,
   ⟨[], [], .tuple [653, 6], []⟩,
   ⟨["bounded_collections", "bounded_vec", "BoundedVec"], [("T", (some 654)), ("S", none)], .composite [⟨none, 655, (some "Vec<T>"), []⟩], []⟩,
   ⟨["pallet_proxy", "Announcement"], [("AccountId", (some 0)), ("Hash", (some 13)), ("BlockNumber", (some 4))], .composite [⟨(some "real"), 0, (some "AccountId"), []⟩, ⟨(some "call_hash"), 13, (some "Hash"), []⟩, ⟨(some "height"), 4, (some "BlockNumber"), []⟩], []⟩,
   ⟨[], [], .sequence 654, []⟩,
   ⟨["pallet_proxy", "pallet", "Error"], [("T", none)], .variant [⟨"TooMany", [], 0, []⟩, ⟨"NotFound", [], 1, []⟩, ⟨"NotProxy", [], 2, []⟩, ⟨"Unproxyable", [], 3, []⟩, ⟨"Duplicate", [], 4, []⟩, ⟨"NoPermission", [], 5, []⟩, ⟨"Unannounced", [], 6, []⟩, ⟨"NoSelfProxy", [], 7, []⟩], []⟩,
   ⟨[], [], .tuple [0, 1], []⟩,
   ⟨["pallet_multisig", "Multisig"], [("BlockNumber", (some 4)), ("Balance", (some 6)), ("AccountId", (some 0)), ("MaxApprovals", none)], .composite [⟨(some "when"), 197, (some "Timepoint<BlockNumber>"), []⟩, ⟨(some "deposit"), 6, (some "Balance"), []⟩, ⟨(some "depositor"), 0, (some "AccountId"), []⟩, ⟨(some "approvals"), 659, (some "BoundedVec<AccountId, MaxApprovals>"), []⟩], []⟩,
   ⟨["bounded_collections", "bounded_vec", "BoundedVec"], [("T", (some 0)), ("S", none)], .composite [⟨none, 116, (some "Vec<T>"), []⟩], []⟩,
   ⟨["pallet_multisig", "pallet", "Error"], [("T", none)], .variant [⟨"MinimumThreshold", [], 0, []⟩, ⟨"AlreadyApproved", [], 1, []⟩, ⟨"NoApprovalsNeeded", [], 2, []⟩, ⟨"TooFewSignatories", [], 3, []⟩, ⟨"TooManySignatories", [], 4, []⟩, ⟨"SignatoriesOutOfOrder", [], 5, []⟩, ⟨"SenderInSignatories", [], 6, []⟩, ⟨"NotFound", [], 7, []⟩, ⟨"NotOwner", [], 8, []⟩, ⟨"NoTimepoint", [], 9, []⟩, ⟨"WrongTimepoint", [], 10, []⟩, ⟨"UnexpectedTimepoint", [], 11, []⟩, ⟨"MaxWeightTooLow", [], 12, []⟩, ⟨"AlreadyStored", [], 13, []⟩], []⟩,
   ⟨["pallet_bounties", "Bounty"], [("AccountId", (some 0)), ("Balance", (some 6)), ("BlockNumber", (some 4))], .composite [⟨(some "proposer"), 0, (some "AccountId"), []⟩, ⟨(some "value"), 6, (some "Balance"), []⟩, ⟨(some "fee"), 6, (some "Balance"), []⟩, ⟨(some "curator_deposit"), 6, (some "Balance"), []⟩, ⟨(some "bond"), 6, (some "Balance"), []⟩, ⟨(some "status"), 662, (some "BountyStatus<AccountId, BlockNumber>"), []⟩], []⟩,
   ⟨["pallet_bounties", "BountyStatus"], [("AccountId", (some 0)), ("BlockNumber", (some 4))], .variant [⟨"Proposed", [], 0, []⟩, ⟨"Approved", [], 1, []⟩, ⟨"Funded", [], 2, []⟩, ⟨"CuratorProposed", [⟨(some "curator"), 0, (some "AccountId"), []⟩], 3, []⟩, ⟨"Active", [⟨(some "curator"), 0, (some "AccountId"), []⟩, ⟨(some "update_due"), 4, (some "BlockNumber"), []⟩], 4, []⟩, ⟨"PendingPayout", [⟨(some "curator"), 0, (some "AccountId"), []⟩, ⟨(some "beneficiary"), 0, (some "AccountId"), []⟩, ⟨(some "unlock_at"), 4, (some "BlockNumber"), []⟩], 5, []⟩], []⟩,
   ⟨["bounded_collections", "bounded_vec", "BoundedVec"], [("T", (some 2)), ("S", none)], .composite [⟨none, 14, (some "Vec<T>"), []⟩], []⟩,
   ⟨["pallet_bounties", "pallet", "Error"], [("T", none), ("I", none)], .variant [⟨"InsufficientProposersBalance", [], 0, []⟩, ⟨"InvalidIndex", [], 1, []⟩, ⟨"ReasonTooBig", [], 2, []⟩, ⟨"UnexpectedStatus", [], 3, []⟩, ⟨"RequireCurator", [], 4, []⟩, ⟨"InvalidValue", [], 5, []⟩, ⟨"InvalidFee", [], 6, []⟩, ⟨"PendingPayout", [], 7, []⟩, ⟨"Premature", [], 8, []⟩, ⟨"HasActiveChildBounty", [], 9, []⟩, ⟨"TooManyQueued", [], 10, []⟩], []⟩,
   ⟨["pallet_child_bounties", "ChildBounty"], [("AccountId", (some 0)), ("Balance", (some 6)), ("BlockNumber", (some 4))], .composite [⟨(some "parent_bounty"), 4, (some "BountyIndex"), []⟩, ⟨(some "value"), 6, (some "Balance"), []⟩, ⟨(some "fee"), 6, (some "Balance"), []⟩, ⟨(some "curator_deposit"), 6, (some "Balance"), []⟩, ⟨(some "status"), 666, (some "ChildBountyStatus<AccountId, BlockNumber>"), []⟩], []⟩,
   ⟨["pallet_child_bounties", "ChildBountyStatus"], [("AccountId", (some 0)), ("BlockNumber", (some 4))], .variant [⟨"Added", [], 0, []⟩, ⟨"CuratorProposed", [⟨(some "curator"), 0, (some "AccountId"), []⟩], 1, []⟩, ⟨"Active", [⟨(some "curator"), 0, (some "AccountId"), []⟩], 2, []⟩, ⟨"PendingPayout", [⟨(some "curator"), 0, (some "AccountId"), []⟩, ⟨(some "beneficiary"), 0, (some "AccountId"), []⟩, ⟨(some "unlock_at"), 4, (some "BlockNumber"), []⟩], 3, []⟩], []⟩,
   ⟨["pallet_child_bounties", "pallet", "Error"], [("T", none)], .variant [⟨"ParentBountyNotActive", [], 0, []⟩, ⟨"InsufficientBountyBalance", [], 1, []⟩, ⟨"TooManyChildBounties", [], 2, []⟩], []⟩,
   ⟨["pallet_election_provider_multi_phase", "ReadySolution"], [("AccountId", none), ("MaxWinners", none)], .composite [⟨(some "supports"), 669, (some "BoundedSupports<AccountId, MaxWinners>"), []⟩, ⟨(some "score"), 253, (some "ElectionScore"), []⟩, ⟨(some "compute"), 468, (some "ElectionCompute"), []⟩], []⟩,
   ⟨["bounded_collections", "bounded_vec", "BoundedVec"], [("T", (some 257)), ("S", none)], .composite [⟨none, 256, (some "Vec<T>"), []⟩], []⟩,
   ⟨["pallet_election_provider_multi_phase", "RoundSnapshot"], [("AccountId", (some 0)), ("DataProvider", (some 671))], .composite [⟨(some "voters"), 672, (some "Vec<DataProvider>"), []⟩, ⟨(some "targets"), 116, (some "Vec<AccountId>"), []⟩], []⟩,
   ⟨[], [], .tuple [0, 12, 569], []⟩]

/-- Types 672 to 703 of `for_tests/polkadot1003003_v15`. -/
def types21 : List Typ :=
  [⟨[], [], .sequence 671, []⟩,
   ⟨["bounded_collections", "bounded_vec", "BoundedVec"], [("T", (some 674)), ("S", none)], .composite [⟨none, 675, (some "Vec<T>"), []⟩], []⟩,
   ⟨[], [], .tuple [253, 4, 4], []⟩,
   ⟨[], [], .sequence 674, []⟩,
   ⟨["pallet_election_provider_multi_phase", "signed", "SignedSubmission"], [("AccountId", (some 0)), ("Balance", (some 6)), ("Solution", (some 202))], .composite [⟨(some "who"), 0, (some "AccountId"), []⟩, ⟨(some "deposit"), 6, (some "Balance"), []⟩, ⟨(some "raw_solution"), 201, (some "RawSolution<Solution>"), []⟩, ⟨(some "call_fee"), 6, (some "Balance"), []⟩], []⟩,
   ⟨["pallet_election_provider_multi_phase", "pallet", "Error"], [("T", none)], .variant [⟨"PreDispatchEarlySubmission", [], 0, []⟩, ⟨"PreDispatchWrongWinnerCount", [], 1, []⟩, ⟨"PreDispatchWeakSubmission", [], 2, []⟩, ⟨"SignedQueueFull", [], 3, []⟩, ⟨"SignedCannotPayDeposit", [], 4, []⟩, ⟨"SignedInvalidWitness", [], 5, []⟩, ⟨"SignedTooMuchWeight", [], 6, []⟩, ⟨"OcwCallWrongEra", [], 7, []⟩, ⟨"MissingSnapshotMetadata", [], 8, []⟩, ⟨"InvalidSubmissionIndex", [], 9, []⟩, ⟨"CallNotAllowed", [], 10, []⟩, ⟨"FallbackFailed", [], 11, []⟩, ⟨"BoundNotMet", [], 12, []⟩, ⟨"TooManyWinners", [], 13, []⟩, ⟨"PreDispatchDifferentRound", [], 14, []⟩], []⟩,
   ⟨["pallet_bags_list", "list", "Node"], [("T", none), ("I", none)], .composite [⟨(some "id"), 0, (some "T::AccountId"), []⟩, ⟨(some "prev"), 127, (some "Option<T::AccountId>"), []⟩, ⟨(some "next"), 127, (some "Option<T::AccountId>"), []⟩, ⟨(some "bag_upper"), 12, (some "T::Score"), []⟩, ⟨(some "score"), 12, (some "T::Score"), []⟩], []⟩,
   ⟨["pallet_bags_list", "list", "Bag"], [("T", none), ("I", none)], .composite [⟨(some "head"), 127, (some "Option<T::AccountId>"), []⟩, ⟨(some "tail"), 127, (some "Option<T::AccountId>"), []⟩], []⟩,
   ⟨[], [], .sequence 12, []⟩,
   ⟨["pallet_bags_list", "pallet", "Error"], [("T", none), ("I", none)], .variant [⟨"List", [⟨none, 682, (some "ListError"), []⟩], 0, []⟩], []⟩,
   ⟨["pallet_bags_list", "list", "ListError"], [], .variant [⟨"Duplicate", [], 0, []⟩, ⟨"NotHeavier", [], 1, []⟩, ⟨"NotInSameBag", [], 2, []⟩, ⟨"NodeNotFound", [], 3, []⟩], []⟩,
   ⟨["pallet_nomination_pools", "PoolMember"], [("T", none)], .composite [⟨(some "pool_id"), 4, (some "PoolId"), []⟩, ⟨(some "points"), 6, (some "BalanceOf<T>"), []⟩, ⟨(some "last_recorded_reward_counter"), 436, (some "T::RewardCounter"), []⟩, ⟨(some "unbonding_eras"), 684, (some "BoundedBTreeMap<EraIndex, BalanceOf<T>, T::MaxUnbonding>"), []⟩], []⟩,
   ⟨["bounded_collections", "bounded_btree_map", "BoundedBTreeMap"], [("K", (some 4)), ("V", (some 6)), ("S", none)], .composite [⟨none, 685, (some "BTreeMap<K, V>"), []⟩], []⟩,
   ⟨["BTreeMap"], [("K", (some 4)), ("V", (some 6))], .composite [⟨none, 633, none, []⟩], []⟩,
   ⟨["pallet_nomination_pools", "BondedPoolInner"], [("T", none)], .composite [⟨(some "commission"), 687, (some "Commission<T>"), []⟩, ⟨(some "member_counter"), 4, (some "u32"), []⟩, ⟨(some "points"), 6, (some "BalanceOf<T>"), []⟩, ⟨(some "roles"), 690, (some "PoolRoles<T::AccountId>"), []⟩, ⟨(some "state"), 264, (some "PoolState"), []⟩], []⟩,
   ⟨["pallet_nomination_pools", "Commission"], [("T", none)], .composite [⟨(some "current"), 270, (some "Option<(Perbill, T::AccountId)>"), []⟩, ⟨(some "max"), 688, (some "Option<Perbill>"), []⟩, ⟨(some "change_rate"), 689, (some "Option<CommissionChangeRate<BlockNumberFor<T>>>"), []⟩, ⟨(some "throttle_from"), 152, (some "Option<BlockNumberFor<T>>"), []⟩, ⟨(some "claim_permission"), 273, (some "Option<CommissionClaimPermission<T::AccountId>>"), []⟩], []⟩,
   ⟨["Option"], [("T", (some 43))], .variant [⟨"None", [], 0, []⟩, ⟨"Some", [⟨none, 43, none, []⟩], 1, []⟩], []⟩,
   ⟨["Option"], [("T", (some 272))], .variant [⟨"None", [], 0, []⟩, ⟨"Some", [⟨none, 272, none, []⟩], 1, []⟩], []⟩,
   ⟨["pallet_nomination_pools", "PoolRoles"], [("AccountId", (some 0))], .composite [⟨(some "depositor"), 0, (some "AccountId"), []⟩, ⟨(some "root"), 127, (some "Option<AccountId>"), []⟩, ⟨(some "nominator"), 127, (some "Option<AccountId>"), []⟩, ⟨(some "bouncer"), 127, (some "Option<AccountId>"), []⟩], []⟩,
   ⟨["pallet_nomination_pools", "RewardPool"], [("T", none)], .composite [⟨(some "last_recorded_reward_counter"), 436, (some "T::RewardCounter"), []⟩, ⟨(some "last_recorded_total_payouts"), 6, (some "BalanceOf<T>"), []⟩, ⟨(some "total_rewards_claimed"), 6, (some "BalanceOf<T>"), []⟩, ⟨(some "total_commission_pending"), 6, (some "BalanceOf<T>"), []⟩, ⟨(some "total_commission_claimed"), 6, (some "BalanceOf<T>"), []⟩], []⟩,
   ⟨["pallet_nomination_pools", "SubPools"], [("T", none)], .composite [⟨(some "no_era"), 693, (some "UnbondPool<T>"), []⟩, ⟨(some "with_era"), 694, (some "BoundedBTreeMap<EraIndex, UnbondPool<T>, TotalUnbondingPools<T>>"), []⟩], []⟩,
   ⟨["pallet_nomination_pools", "UnbondPool"], [("T", none)], .composite [⟨(some "points"), 6, (some "BalanceOf<T>"), []⟩, ⟨(some "balance"), 6, (some "BalanceOf<T>"), []⟩], []⟩,
   ⟨["bounded_collections", "bounded_btree_map", "BoundedBTreeMap"], [("K", (some 4)), ("V", (some 693)), ("S", none)], .composite [⟨none, 695, (some "BTreeMap<K, V>"), []⟩], []⟩,
   ⟨["BTreeMap"], [("K", (some 4)), ("V", (some 693))], .composite [⟨none, 696, none, []⟩], []⟩,
   ⟨[], [], .sequence 697, []⟩,
   ⟨[], [], .tuple [4, 693], []⟩,
   ⟨["bounded_collections", "bounded_vec", "BoundedVec"], [("T", (some 2)), ("S", none)], .composite [⟨none, 14, (some "Vec<T>"), []⟩], []⟩,
   ⟨["pallet_nomination_pools", "pallet", "Error"], [("T", none)], .variant [⟨"PoolNotFound", [], 0, []⟩, ⟨"PoolMemberNotFound", [], 1, []⟩, ⟨"RewardPoolNotFound", [], 2, []⟩, ⟨"SubPoolsNotFound", [], 3, []⟩, ⟨"AccountBelongsToOtherPool", [], 4, []⟩, ⟨"FullyUnbonding", [], 5, []⟩, ⟨"MaxUnbondingLimit", [], 6, []⟩, ⟨"CannotWithdrawAny", [], 7, []⟩, ⟨"MinimumBondNotMet", [], 8, []⟩, ⟨"OverflowRisk", [], 9, []⟩, ⟨"NotDestroying", [], 10, []⟩, ⟨"NotNominator", [], 11, []⟩, ⟨"NotKickerOrDestroying", [], 12, []⟩, ⟨"NotOpen", [], 13, []⟩, ⟨"MaxPools", [], 14, []⟩, ⟨"MaxPoolMembers", [], 15, []⟩, ⟨"CanNotChangeState", [], 16, []⟩, ⟨"DoesNotHavePermission", [], 17, []⟩, ⟨"MetadataExceedsMaxLen", [], 18, []⟩, ⟨"Defensive", [⟨none, 700, (some "DefensiveError"), []⟩], 19, []⟩, ⟨"PartialUnbondNotAllowedPermissionlessly", [], 20, []⟩, ⟨"MaxCommissionRestricted", [], 21, []⟩, ⟨"CommissionExceedsMaximum", [], 22, []⟩, ⟨"CommissionExceedsGlobalMaximum", [], 23, []⟩, ⟨"CommissionChangeThrottled", [], 24, []⟩, ⟨"CommissionChangeRateNotAllowed", [], 25, []⟩, ⟨"NoPendingCommission", [], 26, []⟩, ⟨"NoCommissionCurrentSet", [], 27, []⟩, ⟨"PoolIdInUse", [], 28, []⟩, ⟨"InvalidPoolId", [], 29, []⟩, ⟨"BondExtraRestricted", [], 30, []⟩, ⟨"NothingToAdjust", [], 31, []⟩, ⟨"NothingToSlash", [], 32, []⟩, ⟨"AlreadyMigrated", [], 33, []⟩, ⟨"NotMigrated", [], 34, []⟩, ⟨"NotSupported", [], 35, []⟩], []⟩,
   ⟨["pallet_nomination_pools", "pallet", "DefensiveError"], [], .variant [⟨"NotEnoughSpaceInUnbondPool", [], 0, []⟩, ⟨"PoolNotFound", [], 1, []⟩, ⟨"RewardPoolNotFound", [], 2, []⟩, ⟨"SubPoolsNotFound", [], 3, []⟩, ⟨"BondedStashKilledPrematurely", [], 4, []⟩, ⟨"DelegationUnsupported", [], 5, []⟩, ⟨"SlashNotApplied", [], 6, []⟩], []⟩,
   ⟨["pallet_fast_unstake", "types", "UnstakeRequest"], [("T", none)], .composite [⟨(some "stashes"), 702, (some "BoundedVec<(T::AccountId, BalanceOf<T>), T::BatchSize>"), []⟩, ⟨(some "checked"), 703, (some "BoundedVec<EraIndex, MaxChecking<T>>"), []⟩], []⟩,
   ⟨["bounded_collections", "bounded_vec", "BoundedVec"], [("T", (some 260)), ("S", none)], .composite [⟨none, 259, (some "Vec<T>"), []⟩], []⟩,
   ⟨["bounded_collections", "bounded_vec", "BoundedVec"], [("T", (some 4)), ("S", none)], .composite [⟨none, 121, (some "Vec<T>"), []⟩], []⟩]

/-- Types 704 to 735 of `for_tests/polkadot1003003_v15`. -/
def types22 : List Typ :=
  [⟨["pallet_fast_unstake", "pallet", "Error"], [("T", none)], .variant [⟨"NotController", [], 0, []⟩, ⟨"AlreadyQueued", [], 1, []⟩, ⟨"NotFullyBonded", [], 2, []⟩, ⟨"NotQueued", [], 3, []⟩, ⟨"AlreadyHead", [], 4, []⟩, ⟨"CallNotAllowed", [], 5, []⟩], []⟩,
   ⟨["polkadot_runtime_parachains", "configuration", "HostConfiguration"], [("BlockNumber", (some 4))], .composite [⟨(some "max_code_size"), 4, (some "u32"), []⟩, ⟨(some "max_head_data_size"), 4, (some "u32"), []⟩, ⟨(some "max_upward_queue_count"), 4, (some "u32"), []⟩, ⟨(some "max_upward_queue_size"), 4, (some "u32"), []⟩, ⟨(some "max_upward_message_size"), 4, (some "u32"), []⟩, ⟨(some "max_upward_message_num_per_candidate"), 4, (some "u32"), []⟩, ⟨(some "hrmp_max_message_num_per_candidate"), 4, (some "u32"), []⟩, ⟨(some "validation_upgrade_cooldown"), 4, (some "BlockNumber"), []⟩, ⟨(some "validation_upgrade_delay"), 4, (some "BlockNumber"), []⟩, ⟨(some "async_backing_params"), 277, (some "AsyncBackingParams"), []⟩, ⟨(some "max_pov_size"), 4, (some "u32"), []⟩, ⟨(some "max_downward_message_size"), 4, (some "u32"), []⟩, ⟨(some "hrmp_max_parachain_outbound_channels"), 4, (some "u32"), []⟩, ⟨(some "hrmp_sender_deposit"), 6, (some "Balance"), []⟩, ⟨(some "hrmp_recipient_deposit"), 6, (some "Balance"), []⟩, ⟨(some "hrmp_channel_max_capacity"), 4, (some "u32"), []⟩, ⟨(some "hrmp_channel_max_total_size"), 4, (some "u32"), []⟩, ⟨(some "hrmp_max_parachain_inbound_channels"), 4, (some "u32"), []⟩, ⟨(some "hrmp_channel_max_message_size"), 4, (some "u32"), []⟩, ⟨(some "executor_params"), 278, (some "ExecutorParams"), []⟩, ⟨(some "code_retention_period"), 4, (some "BlockNumber"), []⟩, ⟨(some "max_validators"), 152, (some "Option<u32>"), []⟩, ⟨(some "dispute_period"), 4, (some "SessionIndex"), []⟩, ⟨(some "dispute_post_conclusion_acceptance_period"), 4, (some "BlockNumber"), []⟩, ⟨(some "no_show_slots"), 4, (some "u32"), []⟩, ⟨(some "n_delay_tranches"), 4, (some "u32"), []⟩, ⟨(some "zeroth_delay_tranche_width"), 4, (some "u32"), []⟩, ⟨(some "needed_approvals"), 4, (some "u32"), []⟩, ⟨(some "relay_vrf_modulo_samples"), 4, (some "u32"), []⟩, ⟨(some "pvf_voting_ttl"), 4, (some "SessionIndex"), []⟩, ⟨(some "minimum_validation_upgrade_delay"), 4, (some "BlockNumber"), []⟩, ⟨(some "minimum_backing_votes"), 4, (some "u32"), []⟩, ⟨(some "node_features"), 292, (some "NodeFeatures"), []⟩, ⟨(some "approval_voting_params"), 283, (some "ApprovalVotingParams"), []⟩, ⟨(some "scheduler_params"), 284, (some "SchedulerParams<BlockNumber>"), []⟩], []⟩,
   ⟨[], [], .sequence 707, []⟩,
   ⟨[], [], .tuple [4, 705], []⟩,
   ⟨["polkadot_runtime_parachains", "configuration", "pallet", "Error"], [("T", none)], .variant [⟨"InvalidNewValue", [], 0, []⟩], []⟩,
   ⟨[], [], .sequence 294, []⟩,
   ⟨[], [], .sequence 135, []⟩,
   ⟨["polkadot_runtime_parachains", "shared", "AllowedRelayParentsTracker"], [("Hash", (some 13)), ("BlockNumber", (some 4))], .composite [⟨(some "buffer"), 712, (some "VecDeque<(Hash, Hash)>"), []⟩, ⟨(some "latest_number"), 4, (some "BlockNumber"), []⟩], []⟩,
   ⟨[], [], .sequence 713, []⟩,
   ⟨[], [], .tuple [13, 13], []⟩,
   ⟨[], [], .sequence 715, []⟩,
   ⟨["polkadot_runtime_parachains", "inclusion", "CandidatePendingAvailability"], [("H", (some 13)), ("N", (some 4))], .composite [⟨(some "core"), 476, (some "CoreIndex"), []⟩, ⟨(some "hash"), 315, (some "CandidateHash"), []⟩, ⟨(some "descriptor"), 299, (some "CandidateDescriptor<H>"), []⟩, ⟨(some "commitments"), 303, (some "CandidateCommitments"), []⟩, ⟨(some "availability_votes"), 292, (some "BitVec<u8, BitOrderLsb0>"), []⟩, ⟨(some "backers"), 292, (some "BitVec<u8, BitOrderLsb0>"), []⟩, ⟨(some "relay_parent_number"), 4, (some "N"), []⟩, ⟨(some "backed_in_number"), 4, (some "N"), []⟩, ⟨(some "backing_group"), 477, (some "GroupIndex"), []⟩], []⟩,
   ⟨["polkadot_runtime_parachains", "inclusion", "pallet", "Error"], [("T", none)], .variant [⟨"ValidatorIndexOutOfBounds", [], 0, []⟩, ⟨"UnscheduledCandidate", [], 1, []⟩, ⟨"HeadDataTooLarge", [], 2, []⟩, ⟨"PrematureCodeUpgrade", [], 3, []⟩, ⟨"NewCodeTooLarge", [], 4, []⟩, ⟨"DisallowedRelayParent", [], 5, []⟩, ⟨"InvalidAssignment", [], 6, []⟩, ⟨"InvalidGroupIndex", [], 7, []⟩, ⟨"InsufficientBacking", [], 8, []⟩, ⟨"InvalidBacking", [], 9, []⟩, ⟨"NotCollatorSigned", [], 10, []⟩, ⟨"ValidationDataHashMismatch", [], 11, []⟩, ⟨"IncorrectDownwardMessageHandling", [], 12, []⟩, ⟨"InvalidUpwardMessages", [], 13, []⟩, ⟨"HrmpWatermarkMishandling", [], 14, []⟩, ⟨"InvalidOutboundHrmp", [], 15, []⟩, ⟨"InvalidValidationCodeHash", [], 16, []⟩, ⟨"ParaHeadMismatch", [], 17, []⟩], []⟩,
   ⟨["polkadot_primitives", "v7", "ScrapedOnChainVotes"], [("H", (some 13))], .composite [⟨(some "session"), 4, (some "SessionIndex"), []⟩, ⟨(some "backing_validators_per_candidate"), 718, (some "Vec<(CandidateReceipt<H>, Vec<(ValidatorIndex, ValidityAttestation)>)\n>"), []⟩, ⟨(some "disputes"), 313, (some "MultiDisputeStatementSet"), []⟩], []⟩,
   ⟨[], [], .sequence 719, []⟩,
   ⟨[], [], .tuple [475, 720], []⟩,
   ⟨[], [], .sequence 721, []⟩,
   ⟨[], [], .tuple [294, 312], []⟩,
   ⟨["polkadot_runtime_parachains", "paras_inherent", "pallet", "Error"], [("T", none)], .variant [⟨"TooManyInclusionInherents", [], 0, []⟩, ⟨"InvalidParentHeader", [], 1, []⟩, ⟨"InherentOverweight", [], 2, []⟩, ⟨"CandidatesFilteredDuringExecution", [], 3, []⟩, ⟨"UnscheduledCandidate", [], 4, []⟩], []⟩,
   ⟨[], [], .sequence 709, []⟩,
   ⟨[], [], .sequence 725, []⟩,
   ⟨["polkadot_runtime_parachains", "scheduler", "pallet", "CoreOccupied"], [("N", (some 4))], .variant [⟨"Free", [], 0, []⟩, ⟨"Paras", [⟨none, 726, (some "ParasEntry<N>"), []⟩], 1, []⟩], []⟩,
   ⟨["polkadot_runtime_parachains", "scheduler", "pallet", "ParasEntry"], [("N", (some 4))], .composite [⟨(some "assignment"), 727, (some "Assignment"), []⟩, ⟨(some "availability_timeouts"), 4, (some "u32"), []⟩, ⟨(some "ttl"), 4, (some "N"), []⟩], []⟩,
   ⟨["polkadot_runtime_parachains", "scheduler", "common", "Assignment"], [], .variant [⟨"Pool", [⟨(some "para_id"), 163, (some "ParaId"), []⟩, ⟨(some "core_index"), 476, (some "CoreIndex"), []⟩], 0, []⟩, ⟨"Bulk", [⟨none, 163, (some "ParaId"), []⟩], 1, []⟩], []⟩,
   ⟨["BTreeMap"], [("K", (some 476)), ("V", (some 729))], .composite [⟨none, 730, none, []⟩], []⟩,
   ⟨[], [], .sequence 726, []⟩,
   ⟨[], [], .sequence 731, []⟩,
   ⟨[], [], .tuple [476, 729], []⟩,
   ⟨["polkadot_runtime_parachains", "paras", "PvfCheckActiveVoteState"], [("BlockNumber", (some 4))], .composite [⟨(some "votes_accept"), 292, (some "BitVec<u8, BitOrderLsb0>"), []⟩, ⟨(some "votes_reject"), 292, (some "BitVec<u8, BitOrderLsb0>"), []⟩, ⟨(some "age"), 4, (some "SessionIndex"), []⟩, ⟨(some "created_at"), 4, (some "BlockNumber"), []⟩, ⟨(some "causes"), 733, (some "Vec<PvfCheckCause<BlockNumber>>"), []⟩], []⟩,
   ⟨[], [], .sequence 734, []⟩,
   ⟨["polkadot_runtime_parachains", "paras", "PvfCheckCause"], [("BlockNumber", (some 4))], .variant [⟨"Onboarding", [⟨none, 163, (some "ParaId"), []⟩], 0, []⟩, ⟨"Upgrade", [⟨(some "id"), 163, (some "ParaId"), []⟩, ⟨(some "included_at"), 4, (some "BlockNumber"), []⟩, ⟨(some "upgrade_strategy"), 735, (some "UpgradeStrategy"), []⟩], 1, []⟩], []⟩,
   ⟨["polkadot_runtime_parachains", "paras", "UpgradeStrategy"], [], .variant [⟨"SetGoAheadSignal", [], 0, []⟩, ⟨"ApplyAtExpectedBlock", [], 1, []⟩], []⟩]

/-- Types 736 to 767 of `for_tests/polkadot1003003_v15`. -/
def types23 : List Typ :=
  [⟨[], [], .sequence 302, []⟩,
   ⟨[], [], .sequence 163, []⟩,
   ⟨["polkadot_runtime_parachains", "paras", "ParaLifecycle"], [], .variant [⟨"Onboarding", [], 0, []⟩, ⟨"Parathread", [], 1, []⟩, ⟨"Parachain", [], 2, []⟩, ⟨"UpgradingParathread", [], 3, []⟩, ⟨"DowngradingParachain", [], 4, []⟩, ⟨"OffboardingParathread", [], 5, []⟩, ⟨"OffboardingParachain", [], 6, []⟩], []⟩,
   ⟨[], [], .tuple [163, 4], []⟩,
   ⟨["polkadot_runtime_parachains", "paras", "ParaPastCodeMeta"], [("N", (some 4))], .composite [⟨(some "upgrade_times"), 741, (some "Vec<ReplacementTimes<N>>"), []⟩, ⟨(some "last_pruned"), 152, (some "Option<N>"), []⟩], []⟩,
   ⟨[], [], .sequence 742, []⟩,
   ⟨["polkadot_runtime_parachains", "paras", "ReplacementTimes"], [("N", (some 4))], .composite [⟨(some "expected_at"), 4, (some "N"), []⟩, ⟨(some "activated_at"), 4, (some "N"), []⟩], []⟩,
   ⟨[], [], .sequence 739, []⟩,
   ⟨["polkadot_primitives", "v7", "UpgradeGoAhead"], [], .variant [⟨"Abort", [], 0, []⟩, ⟨"GoAhead", [], 1, []⟩], []⟩,
   ⟨["polkadot_primitives", "v7", "UpgradeRestriction"], [], .variant [⟨"Present", [], 0, []⟩], []⟩,
   ⟨["polkadot_runtime_parachains", "paras", "ParaGenesisArgs"], [], .composite [⟨(some "genesis_head"), 310, (some "HeadData"), []⟩, ⟨(some "validation_code"), 309, (some "ValidationCode"), []⟩, ⟨(some "para_kind"), 8, (some "ParaKind"), []⟩], []⟩,
   ⟨["polkadot_runtime_parachains", "paras", "pallet", "Error"], [("T", none)], .variant [⟨"NotRegistered", [], 0, []⟩, ⟨"CannotOnboard", [], 1, []⟩, ⟨"CannotOffboard", [], 2, []⟩, ⟨"CannotUpgrade", [], 3, []⟩, ⟨"CannotDowngrade", [], 4, []⟩, ⟨"PvfCheckStatementStale", [], 5, []⟩, ⟨"PvfCheckStatementFuture", [], 6, []⟩, ⟨"PvfCheckValidatorIndexOutOfBounds", [], 7, []⟩, ⟨"PvfCheckInvalidSignature", [], 8, []⟩, ⟨"PvfCheckDoubleVote", [], 9, []⟩, ⟨"PvfCheckSubjectInvalid", [], 10, []⟩, ⟨"CannotUpgradeCode", [], 11, []⟩, ⟨"InvalidCode", [], 12, []⟩], []⟩,
   ⟨[], [], .sequence 749, []⟩,
   ⟨["polkadot_runtime_parachains", "initializer", "BufferedSessionChange"], [], .composite [⟨(some "validators"), 710, (some "Vec<ValidatorId>"), []⟩, ⟨(some "queued"), 710, (some "Vec<ValidatorId>"), []⟩, ⟨(some "session_index"), 4, (some "SessionIndex"), []⟩], []⟩,
   ⟨[], [], .sequence 751, []⟩,
   ⟨["polkadot_core_primitives", "InboundDownwardMessage"], [("BlockNumber", (some 4))], .composite [⟨(some "sent_at"), 4, (some "BlockNumber"), []⟩, ⟨(some "msg"), 14, (some "DownwardMessage"), []⟩], []⟩,
   ⟨["polkadot_runtime_parachains", "hrmp", "HrmpOpenChannelRequest"], [], .composite [⟨(some "confirmed"), 8, (some "bool"), []⟩, ⟨(some "_age"), 4, (some "SessionIndex"), []⟩, ⟨(some "sender_deposit"), 6, (some "Balance"), []⟩, ⟨(some "max_message_size"), 4, (some "u32"), []⟩, ⟨(some "max_capacity"), 4, (some "u32"), []⟩, ⟨(some "max_total_size"), 4, (some "u32"), []⟩], []⟩,
   ⟨[], [], .sequence 326, []⟩,
   ⟨["polkadot_runtime_parachains", "hrmp", "HrmpChannel"], [], .composite [⟨(some "max_capacity"), 4, (some "u32"), []⟩, ⟨(some "max_total_size"), 4, (some "u32"), []⟩, ⟨(some "max_message_size"), 4, (some "u32"), []⟩, ⟨(some "msg_count"), 4, (some "u32"), []⟩, ⟨(some "total_size"), 4, (some "u32"), []⟩, ⟨(some "mqc_head"), 167, (some "Option<Hash>"), []⟩, ⟨(some "sender_deposit"), 6, (some "Balance"), []⟩, ⟨(some "recipient_deposit"), 6, (some "Balance"), []⟩], []⟩,
   ⟨[], [], .sequence 756, []⟩,
   ⟨["polkadot_core_primitives", "InboundHrmpMessage"], [("BlockNumber", (some 4))], .composite [⟨(some "sent_at"), 4, (some "BlockNumber"), []⟩, ⟨(some "data"), 14, (some "sp_std::vec::Vec<u8>"), []⟩], []⟩,
   ⟨[], [], .sequence 758, []⟩,
   ⟨[], [], .tuple [4, 737], []⟩,
   ⟨["polkadot_runtime_parachains", "hrmp", "pallet", "Error"], [("T", none)], .variant [⟨"OpenHrmpChannelToSelf", [], 0, []⟩, ⟨"OpenHrmpChannelInvalidRecipient", [], 1, []⟩, ⟨"OpenHrmpChannelZeroCapacity", [], 2, []⟩, ⟨"OpenHrmpChannelCapacityExceedsLimit", [], 3, []⟩, ⟨"OpenHrmpChannelZeroMessageSize", [], 4, []⟩, ⟨"OpenHrmpChannelMessageSizeExceedsLimit", [], 5, []⟩, ⟨"OpenHrmpChannelAlreadyExists", [], 6, []⟩, ⟨"OpenHrmpChannelAlreadyRequested", [], 7, []⟩, ⟨"OpenHrmpChannelLimitExceeded", [], 8, []⟩, ⟨"AcceptHrmpChannelDoesntExist", [], 9, []⟩, ⟨"AcceptHrmpChannelAlreadyConfirmed", [], 10, []⟩, ⟨"AcceptHrmpChannelLimitExceeded", [], 11, []⟩, ⟨"CloseHrmpChannelUnauthorized", [], 12, []⟩, ⟨"CloseHrmpChannelDoesntExist", [], 13, []⟩, ⟨"CloseHrmpChannelAlreadyUnderway", [], 14, []⟩, ⟨"CancelHrmpOpenChannelUnauthorized", [], 15, []⟩, ⟨"OpenHrmpChannelDoesntExist", [], 16, []⟩, ⟨"OpenHrmpChannelAlreadyConfirmed", [], 17, []⟩, ⟨"WrongWitness", [], 18, []⟩, ⟨"ChannelCreationNotAuthorized", [], 19, []⟩], []⟩,
   ⟨[], [], .sequence 136, []⟩,
   ⟨["polkadot_primitives", "v7", "SessionInfo"], [], .composite [⟨(some "active_validator_indices"), 709, (some "Vec<ValidatorIndex>"), []⟩, ⟨(some "random_seed"), 1, (some "[u8; 32]"), []⟩, ⟨(some "dispute_period"), 4, (some "SessionIndex"), []⟩, ⟨(some "validators"), 762, (some "IndexedVec<ValidatorIndex, ValidatorId>"), []⟩, ⟨(some "discovery_keys"), 602, (some "Vec<AuthorityDiscoveryId>"), []⟩, ⟨(some "assignment_keys"), 760, (some "Vec<AssignmentId>"), []⟩, ⟨(some "validator_groups"), 763, (some "IndexedVec<GroupIndex, Vec<ValidatorIndex>>"), []⟩, ⟨(some "n_cores"), 4, (some "u32"), []⟩, ⟨(some "zeroth_delay_tranche_width"), 4, (some "u32"), []⟩, ⟨(some "relay_vrf_modulo_samples"), 4, (some "u32"), []⟩, ⟨(some "n_delay_tranches"), 4, (some "u32"), []⟩, ⟨(some "no_show_slots"), 4, (some "u32"), []⟩, ⟨(some "needed_approvals"), 4, (some "u32"), []⟩], []⟩,
   ⟨["polkadot_primitives", "v7", "IndexedVec"], [("K", (some 294)), ("V", (some 135))], .composite [⟨none, 710, (some "Vec<V>"), []⟩], []⟩,
   ⟨["polkadot_primitives", "v7", "IndexedVec"], [("K", (some 477)), ("V", (some 709))], .composite [⟨none, 723, (some "Vec<V>"), []⟩], []⟩,
   ⟨[], [], .tuple [4, 315], []⟩,
   ⟨["polkadot_primitives", "v7", "DisputeState"], [("N", (some 4))], .composite [⟨(some "validators_for"), 292, (some "BitVec<u8, bitvec::order::Lsb0>"), []⟩, ⟨(some "validators_against"), 292, (some "BitVec<u8, bitvec::order::Lsb0>"), []⟩, ⟨(some "start"), 4, (some "N"), []⟩, ⟨(some "concluded_at"), 152, (some "Option<N>"), []⟩], []⟩,
   ⟨["BTreeSet"], [("T", (some 294))], .composite [⟨none, 709, none, []⟩], []⟩,
   ⟨["polkadot_runtime_parachains", "disputes", "pallet", "Error"], [("T", none)], .variant [⟨"DuplicateDisputeStatementSets", [], 0, []⟩, ⟨"AncientDisputeStatement", [], 1, []⟩, ⟨"ValidatorIndexOutOfBounds", [], 2, []⟩, ⟨"InvalidSignature", [], 3, []⟩, ⟨"DuplicateStatement", [], 4, []⟩, ⟨"SingleSidedDispute", [], 5, []⟩, ⟨"MaliciousBacker", [], 6, []⟩, ⟨"MissingBackingVotes", [], 7, []⟩, ⟨"UnconfirmedDispute", [], 8, []⟩], []⟩]

/-- Types 768 to 799 of `for_tests/polkadot1003003_v15`. -/
def types24 : List Typ :=
  [⟨["polkadot_primitives", "v7", "slashing", "PendingSlashes"], [], .composite [⟨(some "keys"), 769, (some "BTreeMap<ValidatorIndex, ValidatorId>"), []⟩, ⟨(some "kind"), 331, (some "SlashingOffenceKind"), []⟩], []⟩,
   ⟨["BTreeMap"], [("K", (some 294)), ("V", (some 135))], .composite [⟨none, 770, none, []⟩], []⟩,
   ⟨[], [], .sequence 771, []⟩,
   ⟨[], [], .tuple [294, 135], []⟩,
   ⟨["polkadot_runtime_parachains", "disputes", "slashing", "pallet", "Error"], [("T", none)], .variant [⟨"InvalidKeyOwnershipProof", [], 0, []⟩, ⟨"InvalidSessionIndex", [], 1, []⟩, ⟨"InvalidCandidateHash", [], 2, []⟩, ⟨"InvalidValidatorIndex", [], 3, []⟩, ⟨"ValidatorIndexIdMismatch", [], 4, []⟩, ⟨"DuplicateSlashingReport", [], 5, []⟩], []⟩,
   ⟨["polkadot_runtime_parachains", "assigner_on_demand", "types", "CoreAffinityCount"], [], .composite [⟨(some "core_index"), 476, (some "CoreIndex"), []⟩, ⟨(some "count"), 4, (some "u32"), []⟩], []⟩,
   ⟨["polkadot_runtime_parachains", "assigner_on_demand", "types", "QueueStatusType"], [], .composite [⟨(some "traffic"), 436, (some "FixedU128"), []⟩, ⟨(some "next_index"), 775, (some "QueueIndex"), []⟩, ⟨(some "smallest_index"), 775, (some "QueueIndex"), []⟩, ⟨(some "freed_indices"), 776, (some "BinaryHeap<ReverseQueueIndex>"), []⟩], []⟩,
   ⟨["polkadot_runtime_parachains", "assigner_on_demand", "types", "QueueIndex"], [], .composite [⟨none, 4, (some "u32"), []⟩], []⟩,
   ⟨["BinaryHeap"], [("T", (some 777))], .composite [⟨none, 778, none, []⟩], []⟩,
   ⟨["polkadot_runtime_parachains", "assigner_on_demand", "types", "ReverseQueueIndex"], [], .composite [⟨none, 4, (some "u32"), []⟩], []⟩,
   ⟨[], [], .sequence 777, []⟩,
   ⟨["BinaryHeap"], [("T", (some 780))], .composite [⟨none, 781, none, []⟩], []⟩,
   ⟨["polkadot_runtime_parachains", "assigner_on_demand", "types", "EnqueuedOrder"], [], .composite [⟨(some "para_id"), 163, (some "ParaId"), []⟩, ⟨(some "idx"), 775, (some "QueueIndex"), []⟩], []⟩,
   ⟨[], [], .sequence 780, []⟩,
   ⟨["bounded_collections", "bounded_vec", "BoundedVec"], [("T", (some 6)), ("S", none)], .composite [⟨none, 783, (some "Vec<T>"), []⟩], []⟩,
   ⟨[], [], .sequence 6, []⟩,
   ⟨["polkadot_runtime_parachains", "assigner_on_demand", "pallet", "Error"], [("T", none)], .variant [⟨"QueueFull", [], 0, []⟩, ⟨"SpotPriceHigherThanMaxAmount", [], 1, []⟩], []⟩,
   ⟨[], [], .tuple [4, 476], []⟩,
   ⟨["polkadot_runtime_parachains", "assigner_coretime", "Schedule"], [("N", (some 4))], .composite [⟨(some "assignments"), 343, (some "Vec<(CoreAssignment, PartsOf57600)>"), []⟩, ⟨(some "end_hint"), 152, (some "Option<N>"), []⟩, ⟨(some "next_schedule"), 152, (some "Option<N>"), []⟩], []⟩,
   ⟨["polkadot_runtime_parachains", "assigner_coretime", "CoreDescriptor"], [("N", (some 4))], .composite [⟨(some "queue"), 788, (some "Option<QueueDescriptor<N>>"), []⟩, ⟨(some "current_work"), 790, (some "Option<WorkState<N>>"), []⟩], []⟩,
   ⟨["Option"], [("T", (some 789))], .variant [⟨"None", [], 0, []⟩, ⟨"Some", [⟨none, 789, none, []⟩], 1, []⟩], []⟩,
   ⟨["polkadot_runtime_parachains", "assigner_coretime", "QueueDescriptor"], [("N", (some 4))], .composite [⟨(some "first"), 4, (some "N"), []⟩, ⟨(some "last"), 4, (some "N"), []⟩], []⟩,
   ⟨["Option"], [("T", (some 791))], .variant [⟨"None", [], 0, []⟩, ⟨"Some", [⟨none, 791, none, []⟩], 1, []⟩], []⟩,
   ⟨["polkadot_runtime_parachains", "assigner_coretime", "WorkState"], [("N", (some 4))], .composite [⟨(some "assignments"), 792, (some "Vec<(CoreAssignment, AssignmentState)>"), []⟩, ⟨(some "end_hint"), 152, (some "Option<N>"), []⟩, ⟨(some "pos"), 91, (some "u16"), []⟩, ⟨(some "step"), 346, (some "PartsOf57600"), []⟩], []⟩,
   ⟨[], [], .sequence 793, []⟩,
   ⟨[], [], .tuple [345, 794], []⟩,
   ⟨["polkadot_runtime_parachains", "assigner_coretime", "AssignmentState"], [], .composite [⟨(some "ratio"), 346, (some "PartsOf57600"), []⟩, ⟨(some "remaining"), 346, (some "PartsOf57600"), []⟩], []⟩,
   ⟨["polkadot_runtime_parachains", "assigner_coretime", "pallet", "Error"], [("T", none)], .variant [⟨"AssignmentsEmpty", [], 0, []⟩, ⟨"OverScheduled", [], 1, []⟩, ⟨"UnderScheduled", [], 2, []⟩, ⟨"DisallowedInsert", [], 3, []⟩, ⟨"DuplicateInsert", [], 4, []⟩, ⟨"AssignmentsNotSorted", [], 5, []⟩], []⟩,
   ⟨["polkadot_runtime_common", "paras_registrar", "ParaInfo"], [("Account", (some 0)), ("Balance", (some 6))], .composite [⟨(some "manager"), 0, (some "Account"), []⟩, ⟨(some "deposit"), 6, (some "Balance"), []⟩, ⟨(some "locked"), 179, (some "Option<bool>"), []⟩], []⟩,
   ⟨["polkadot_runtime_common", "paras_registrar", "pallet", "Error"], [("T", none)], .variant [⟨"NotRegistered", [], 0, []⟩, ⟨"AlreadyRegistered", [], 1, []⟩, ⟨"NotOwner", [], 2, []⟩, ⟨"CodeTooLarge", [], 3, []⟩, ⟨"HeadDataTooLarge", [], 4, []⟩, ⟨"NotParachain", [], 5, []⟩, ⟨"NotParathread", [], 6, []⟩, ⟨"CannotDeregister", [], 7, []⟩, ⟨"CannotDowngrade", [], 8, []⟩, ⟨"CannotUpgrade", [], 9, []⟩, ⟨"ParaLocked", [], 10, []⟩, ⟨"NotReserved", [], 11, []⟩, ⟨"InvalidCode", [], 12, []⟩, ⟨"CannotSwap", [], 13, []⟩], []⟩,
   ⟨[], [], .sequence 520, []⟩,
   ⟨["polkadot_runtime_common", "slots", "pallet", "Error"], [("T", none)], .variant [⟨"ParaNotOnboarding", [], 0, []⟩, ⟨"LeaseError", [], 1, []⟩], []⟩]

/-- Types 800 to 831 of `for_tests/polkadot1003003_v15`. -/
def types25 : List Typ :=
  [⟨[], [], .tuple [0, 163], []⟩,
   ⟨[], [], .array 36 802, []⟩,
   ⟨["Option"], [("T", (some 803))], .variant [⟨"None", [], 0, []⟩, ⟨"Some", [⟨none, 803, none, []⟩], 1, []⟩], []⟩,
   ⟨[], [], .tuple [0, 163, 6], []⟩,
   ⟨["polkadot_runtime_common", "auctions", "pallet", "Error"], [("T", none)], .variant [⟨"AuctionInProgress", [], 0, []⟩, ⟨"LeasePeriodInPast", [], 1, []⟩, ⟨"ParaNotRegistered", [], 2, []⟩, ⟨"NotCurrentAuction", [], 3, []⟩, ⟨"NotAuction", [], 4, []⟩, ⟨"AuctionEnded", [], 5, []⟩, ⟨"AlreadyLeasedOut", [], 6, []⟩], []⟩,
   ⟨["polkadot_runtime_common", "crowdloan", "FundInfo"], [("AccountId", (some 0)), ("Balance", (some 6)), ("BlockNumber", (some 4)), ("LeasePeriod", (some 4))], .composite [⟨(some "depositor"), 0, (some "AccountId"), []⟩, ⟨(some "verifier"), 338, (some "Option<MultiSigner>"), []⟩, ⟨(some "deposit"), 6, (some "Balance"), []⟩, ⟨(some "raised"), 6, (some "Balance"), []⟩, ⟨(some "end"), 4, (some "BlockNumber"), []⟩, ⟨(some "cap"), 6, (some "Balance"), []⟩, ⟨(some "last_contribution"), 806, (some "LastContribution<BlockNumber>"), []⟩, ⟨(some "first_period"), 4, (some "LeasePeriod"), []⟩, ⟨(some "last_period"), 4, (some "LeasePeriod"), []⟩, ⟨(some "fund_index"), 4, (some "FundIndex"), []⟩], []⟩,
   ⟨["polkadot_runtime_common", "crowdloan", "LastContribution"], [("BlockNumber", (some 4))], .variant [⟨"Never", [], 0, []⟩, ⟨"PreEnding", [⟨none, 4, (some "u32"), []⟩], 1, []⟩, ⟨"Ending", [⟨none, 4, (some "BlockNumber"), []⟩], 2, []⟩], []⟩,
   ⟨["polkadot_runtime_common", "crowdloan", "pallet", "Error"], [("T", none)], .variant [⟨"FirstPeriodInPast", [], 0, []⟩, ⟨"FirstPeriodTooFarInFuture", [], 1, []⟩, ⟨"LastPeriodBeforeFirstPeriod", [], 2, []⟩, ⟨"LastPeriodTooFarInFuture", [], 3, []⟩, ⟨"CannotEndInPast", [], 4, []⟩, ⟨"EndTooFarInFuture", [], 5, []⟩, ⟨"Overflow", [], 6, []⟩, ⟨"ContributionTooSmall", [], 7, []⟩, ⟨"InvalidParaId", [], 8, []⟩, ⟨"CapExceeded", [], 9, []⟩, ⟨"ContributionPeriodOver", [], 10, []⟩, ⟨"InvalidOrigin", [], 11, []⟩, ⟨"NotParachain", [], 12, []⟩, ⟨"LeaseActive", [], 13, []⟩, ⟨"BidOrLeaseActive", [], 14, []⟩, ⟨"FundNotEnded", [], 15, []⟩, ⟨"NoContributions", [], 16, []⟩, ⟨"NotReadyToDissolve", [], 17, []⟩, ⟨"InvalidSignature", [], 18, []⟩, ⟨"MemoTooLarge", [], 19, []⟩, ⟨"AlreadyInNewRaise", [], 20, []⟩, ⟨"VrfDelayInProgress", [], 21, []⟩, ⟨"NoLeasePeriod", [], 22, []⟩], []⟩,
   ⟨["polkadot_runtime_parachains", "coretime", "pallet", "Error"], [("T", none)], .variant [⟨"NotBroker", [], 0, []⟩, ⟨"RequestedFutureRevenue", [], 1, []⟩, ⟨"AssetTransferFailed", [], 2, []⟩], []⟩,
   ⟨["pallet_xcm", "pallet", "QueryStatus"], [("BlockNumber", (some 4))], .variant [⟨"Pending", [⟨(some "responder"), 81, (some "VersionedLocation"), []⟩, ⟨(some "maybe_match_querier"), 810, (some "Option<VersionedLocation>"), []⟩, ⟨(some "maybe_notify"), 811, (some "Option<(u8, u8)>"), []⟩, ⟨(some "timeout"), 4, (some "BlockNumber"), []⟩], 0, []⟩, ⟨"VersionNotifier", [⟨(some "origin"), 81, (some "VersionedLocation"), []⟩, ⟨(some "is_active"), 8, (some "bool"), []⟩], 1, []⟩, ⟨"Ready", [⟨(some "response"), 813, (some "VersionedResponse"), []⟩, ⟨(some "at"), 4, (some "BlockNumber"), []⟩], 2, []⟩], []⟩,
   ⟨["Option"], [("T", (some 81))], .variant [⟨"None", [], 0, []⟩, ⟨"Some", [⟨none, 81, none, []⟩], 1, []⟩], []⟩,
   ⟨["Option"], [("T", (some 812))], .variant [⟨"None", [], 0, []⟩, ⟨"Some", [⟨none, 812, none, []⟩], 1, []⟩], []⟩,
   ⟨[], [], .tuple [2, 2], []⟩,
   ⟨["xcm", "VersionedResponse"], [], .variant [⟨"V2", [⟨none, 365, (some "v2::Response"), []⟩], 2, []⟩, ⟨"V3", [⟨none, 383, (some "v3::Response"), []⟩], 3, []⟩, ⟨"V4", [⟨none, 408, (some "v4::Response"), []⟩], 4, []⟩], []⟩,
   ⟨[], [], .tuple [4, 81], []⟩,
   ⟨[], [], .tuple [12, 10, 4], []⟩,
   ⟨["bounded_collections", "bounded_vec", "BoundedVec"], [("T", (some 817)), ("S", none)], .composite [⟨none, 818, (some "Vec<T>"), []⟩], []⟩,
   ⟨[], [], .tuple [81, 4], []⟩,
   ⟨[], [], .sequence 817, []⟩,
   ⟨["pallet_xcm", "pallet", "VersionMigrationStage"], [], .variant [⟨"MigrateSupportedVersion", [], 0, []⟩, ⟨"MigrateVersionNotifiers", [], 1, []⟩, ⟨"NotifyCurrentTargets", [⟨none, 820, (some "Option<Vec<u8>>"), []⟩], 2, []⟩, ⟨"MigrateAndNotifyOldTargets", [], 3, []⟩], []⟩,
   ⟨["Option"], [("T", (some 14))], .variant [⟨"None", [], 0, []⟩, ⟨"Some", [⟨none, 14, none, []⟩], 1, []⟩], []⟩,
   ⟨[], [], .tuple [4, 0, 431], []⟩,
   ⟨["pallet_xcm", "pallet", "RemoteLockedFungibleRecord"], [("ConsumerIdentifier", (some 35)), ("MaxConsumers", none)], .composite [⟨(some "amount"), 6, (some "u128"), []⟩, ⟨(some "owner"), 81, (some "VersionedLocation"), []⟩, ⟨(some "locker"), 81, (some "VersionedLocation"), []⟩, ⟨(some "consumers"), 823, (some "BoundedVec<(ConsumerIdentifier, u128), MaxConsumers>"), []⟩], []⟩,
   ⟨["bounded_collections", "bounded_vec", "BoundedVec"], [("T", (some 824)), ("S", none)], .composite [⟨none, 825, (some "Vec<T>"), []⟩], []⟩,
   ⟨[], [], .tuple [35, 6], []⟩,
   ⟨[], [], .sequence 824, []⟩,
   ⟨["bounded_collections", "bounded_vec", "BoundedVec"], [("T", (some 827)), ("S", none)], .composite [⟨none, 828, (some "Vec<T>"), []⟩], []⟩,
   ⟨[], [], .tuple [6, 81], []⟩,
   ⟨[], [], .sequence 827, []⟩,
   ⟨["pallet_xcm", "pallet", "Error"], [("T", none)], .variant [⟨"Unreachable", [], 0, []⟩, ⟨"SendFailure", [], 1, []⟩, ⟨"Filtered", [], 2, []⟩, ⟨"UnweighableMessage", [], 3, []⟩, ⟨"DestinationNotInvertible", [], 4, []⟩, ⟨"Empty", [], 5, []⟩, ⟨"CannotReanchor", [], 6, []⟩, ⟨"TooManyAssets", [], 7, []⟩, ⟨"InvalidOrigin", [], 8, []⟩, ⟨"BadVersion", [], 9, []⟩, ⟨"BadLocation", [], 10, []⟩, ⟨"NoSubscription", [], 11, []⟩, ⟨"AlreadySubscribed", [], 12, []⟩, ⟨"CannotCheckOutTeleport", [], 13, []⟩, ⟨"LowBalance", [], 14, []⟩, ⟨"TooManyLocks", [], 15, []⟩, ⟨"AccountNotSovereign", [], 16, []⟩, ⟨"FeesNotMet", [], 17, []⟩, ⟨"LockNotFound", [], 18, []⟩, ⟨"InUse", [], 19, []⟩, ⟨"InvalidAssetUnknownReserve", [], 21, []⟩, ⟨"InvalidAssetUnsupportedReserve", [], 22, []⟩, ⟨"TooManyReserves", [], 23, []⟩, ⟨"LocalExecutionIncomplete", [], 24, []⟩], []⟩,
   ⟨["pallet_message_queue", "BookState"], [("MessageOrigin", (some 433))], .composite [⟨(some "begin"), 4, (some "PageIndex"), []⟩, ⟨(some "end"), 4, (some "PageIndex"), []⟩, ⟨(some "count"), 4, (some "PageIndex"), []⟩, ⟨(some "ready_neighbours"), 831, (some "Option<Neighbours<MessageOrigin>>"), []⟩, ⟨(some "message_count"), 12, (some "u64"), []⟩, ⟨(some "size"), 12, (some "u64"), []⟩], []⟩,
   ⟨["Option"], [("T", (some 832))], .variant [⟨"None", [], 0, []⟩, ⟨"Some", [⟨none, 832, none, []⟩], 1, []⟩], []⟩]

/-- Types 832 to 863 of `for_tests/polkadot1003003_v15`. -/
def types26 : List Typ :=
  [⟨["pallet_message_queue", "Neighbours"], [("MessageOrigin", (some 433))], .composite [⟨(some "prev"), 433, (some "MessageOrigin"), []⟩, ⟨(some "next"), 433, (some "MessageOrigin"), []⟩], []⟩,
   ⟨[], [], .tuple [433, 4], []⟩,
   ⟨["pallet_message_queue", "Page"], [("Size", (some 4)), ("HeapSize", none)], .composite [⟨(some "remaining"), 4, (some "Size"), []⟩, ⟨(some "remaining_size"), 4, (some "Size"), []⟩, ⟨(some "first_index"), 4, (some "Size"), []⟩, ⟨(some "first"), 4, (some "Size"), []⟩, ⟨(some "last"), 4, (some "Size"), []⟩, ⟨(some "heap"), 835, (some "BoundedVec<u8, IntoU32<HeapSize, Size>>"), []⟩], []⟩,
   ⟨["bounded_collections", "bounded_vec", "BoundedVec"], [("T", (some 2)), ("S", none)], .composite [⟨none, 14, (some "Vec<T>"), []⟩], []⟩,
   ⟨["pallet_message_queue", "pallet", "Error"], [("T", none)], .variant [⟨"NotReapable", [], 0, []⟩, ⟨"NoPage", [], 1, []⟩, ⟨"NoMessage", [], 2, []⟩, ⟨"AlreadyProcessed", [], 3, []⟩, ⟨"Queued", [], 4, []⟩, ⟨"InsufficientWeight", [], 5, []⟩, ⟨"TemporarilyUnprocessable", [], 6, []⟩, ⟨"QueuePaused", [], 7, []⟩, ⟨"RecursiveDisallowed", [], 8, []⟩], []⟩,
   ⟨["pallet_asset_rate", "pallet", "Error"], [("T", none)], .variant [⟨"UnknownAssetKind", [], 0, []⟩, ⟨"AlreadyExists", [], 1, []⟩, ⟨"Overflow", [], 2, []⟩], []⟩,
   ⟨["bounded_collections", "bounded_vec", "BoundedVec"], [("T", (some 138)), ("S", none)], .composite [⟨none, 839, (some "Vec<T>"), []⟩], []⟩,
   ⟨[], [], .sequence 138, []⟩,
   ⟨["pallet_beefy", "pallet", "Error"], [("T", none)], .variant [⟨"InvalidKeyOwnershipProof", [], 0, []⟩, ⟨"InvalidEquivocationProof", [], 1, []⟩, ⟨"DuplicateOffenceReport", [], 2, []⟩, ⟨"InvalidConfiguration", [], 3, []⟩], []⟩,
   ⟨["sp_consensus_beefy", "mmr", "BeefyAuthoritySet"], [("AuthoritySetCommitment", (some 13))], .composite [⟨(some "id"), 12, (some "crate::ValidatorSetId"), []⟩, ⟨(some "len"), 4, (some "u32"), []⟩, ⟨(some "keyset_commitment"), 13, (some "AuthoritySetCommitment"), []⟩], []⟩,
   ⟨[], [], .tuple [843, 844, 845, 846, 847, 849, 850, 851, 852, 853], []⟩,
   ⟨["frame_system", "extensions", "check_non_zero_sender", "CheckNonZeroSender"], [("T", none)], .composite [], []⟩,
   ⟨["frame_system", "extensions", "check_spec_version", "CheckSpecVersion"], [("T", none)], .composite [], []⟩,
   ⟨["frame_system", "extensions", "check_tx_version", "CheckTxVersion"], [("T", none)], .composite [], []⟩,
   ⟨["frame_system", "extensions", "check_genesis", "CheckGenesis"], [("T", none)], .composite [], []⟩,
   ⟨["frame_system", "extensions", "check_mortality", "CheckMortality"], [("T", none)], .composite [⟨none, 848, (some "Era"), []⟩], []⟩,
   ⟨["sp_runtime", "generic", "era", "Era"], [], .variant [⟨"Immortal", [], 0, []⟩, ⟨"Mortal1", [⟨none, 2, none, []⟩], 1, []⟩, ⟨"Mortal2", [⟨none, 2, none, []⟩], 2, []⟩, ⟨"Mortal3", [⟨none, 2, none, []⟩], 3, []⟩, ⟨"Mortal4", [⟨none, 2, none, []⟩], 4, []⟩, ⟨"Mortal5", [⟨none, 2, none, []⟩], 5, []⟩, ⟨"Mortal6", [⟨none, 2, none, []⟩], 6, []⟩, ⟨"Mortal7", [⟨none, 2, none, []⟩], 7, []⟩, ⟨"Mortal8", [⟨none, 2, none, []⟩], 8, []⟩, ⟨"Mortal9", [⟨none, 2, none, []⟩], 9, []⟩, ⟨"Mortal10", [⟨none, 2, none, []⟩], 10, []⟩, ⟨"Mortal11", [⟨none, 2, none, []⟩], 11, []⟩, ⟨"Mortal12", [⟨none, 2, none, []⟩], 12, []⟩, ⟨"Mortal13", [⟨none, 2, none, []⟩], 13, []⟩, ⟨"Mortal14", [⟨none, 2, none, []⟩], 14, []⟩, ⟨"Mortal15", [⟨none, 2, none, []⟩], 15, []⟩, ⟨"Mortal16", [⟨none, 2, none, []⟩], 16, []⟩, ⟨"Mortal17", [⟨none, 2, none, []⟩], 17, []⟩, ⟨"Mortal18", [⟨none, 2, none, []⟩], 18, []⟩, ⟨"Mortal19", [⟨none, 2, none, []⟩], 19, []⟩, ⟨"Mortal20", [⟨none, 2, none, []⟩], 20, []⟩, ⟨"Mortal21", [⟨none, 2, none, []⟩], 21, []⟩, ⟨"Mortal22", [⟨none, 2, none, []⟩], 22, []⟩, ⟨"Mortal23", [⟨none, 2, none, []⟩], 23, []⟩, ⟨"Mortal24", [⟨none, 2, none, []⟩], 24, []⟩, ⟨"Mortal25", [⟨none, 2, none, []⟩], 25, []⟩, ⟨"Mortal26", [⟨none, 2, none, []⟩], 26, []⟩, ⟨"Mortal27", [⟨none, 2, none, []⟩], 27, []⟩, ⟨"Mortal28", [⟨none, 2, none, []⟩], 28, []⟩, ⟨"Mortal29", [⟨none, 2, none, []⟩], 29, []⟩, ⟨"Mortal30", [⟨none, 2, none, []⟩], 30, []⟩, ⟨"Mortal31", [⟨none, 2, none, []⟩], 31, []⟩, ⟨"Mortal32", [⟨none, 2, none, []⟩], 32, []⟩, ⟨"Mortal33", [⟨none, 2, none, []⟩], 33, []⟩, ⟨"Mortal34", [⟨none, 2, none, []⟩], 34, []⟩, ⟨"Mortal35", [⟨none, 2, none, []⟩], 35, []⟩, ⟨"Mortal36", [⟨none, 2, none, []⟩], 36, []⟩, ⟨"Mortal37", [⟨none, 2, none, []⟩], 37, []⟩, ⟨"Mortal38", [⟨none, 2, none, []⟩], 38, []⟩, ⟨"Mortal39", [⟨none, 2, none, []⟩], 39, []⟩, ⟨"Mortal40", [⟨none, 2, none, []⟩], 40, []⟩, ⟨"Mortal41", [⟨none, 2, none, []⟩], 41, []⟩, ⟨"Mortal42", [⟨none, 2, none, []⟩], 42, []⟩, ⟨"Mortal43", [⟨none, 2, none, []⟩], 43, []⟩, ⟨"Mortal44", [⟨none, 2, none, []⟩], 44, []⟩, ⟨"Mortal45", [⟨none, 2, none, []⟩], 45, []⟩, ⟨"Mortal46", [⟨none, 2, none, []⟩], 46, []⟩, ⟨"Mortal47", [⟨none, 2, none, []⟩], 47, []⟩, ⟨"Mortal48", [⟨none, 2, none, []⟩], 48, []⟩, ⟨"Mortal49", [⟨none, 2, none, []⟩], 49, []⟩, ⟨"Mortal50", [⟨none, 2, none, []⟩], 50, []⟩, ⟨"Mortal51", [⟨none, 2, none, []⟩], 51, []⟩, ⟨"Mortal52", [⟨none, 2, none, []⟩], 52, []⟩, ⟨"Mortal53", [⟨none, 2, none, []⟩], 53, []⟩, ⟨"Mortal54", [⟨none, 2, none, []⟩], 54, []⟩, ⟨"Mortal55", [⟨none, 2, none, []⟩], 55, []⟩, ⟨"Mortal56", [⟨none, 2, none, []⟩], 56, []⟩, ⟨"Mortal57", [⟨none, 2, none, []⟩], 57, []⟩, ⟨"Mortal58", [⟨none, 2, none, []⟩], 58, []⟩, ⟨"Mortal59", [⟨none, 2, none, []⟩], 59, []⟩, ⟨"Mortal60", [⟨none, 2, none, []⟩], 60, []⟩, ⟨"Mortal61", [⟨none, 2, none, []⟩], 61, []⟩, ⟨"Mortal62", [⟨none, 2, none, []⟩], 62, []⟩, ⟨"Mortal63", [⟨none, 2, none, []⟩], 63, []⟩, ⟨"Mortal64", [⟨none, 2, none, []⟩], 64, []⟩, ⟨"Mortal65", [⟨none, 2, none, []⟩], 65, []⟩, ⟨"Mortal66", [⟨none, 2, none, []⟩], 66, []⟩, ⟨"Mortal67", [⟨none, 2, none, []⟩], 67, []⟩, ⟨"Mortal68", [⟨none, 2, none, []⟩], 68, []⟩, ⟨"Mortal69", [⟨none, 2, none, []⟩], 69, []⟩, ⟨"Mortal70", [⟨none, 2, none, []⟩], 70, []⟩, ⟨"Mortal71", [⟨none, 2, none, []⟩], 71, []⟩, ⟨"Mortal72", [⟨none, 2, none, []⟩], 72, []⟩, ⟨"Mortal73", [⟨none, 2, none, []⟩], 73, []⟩, ⟨"Mortal74", [⟨none, 2, none, []⟩], 74, []⟩, ⟨"Mortal75", [⟨none, 2, none, []⟩], 75, []⟩, ⟨"Mortal76", [⟨none, 2, none, []⟩], 76, []⟩, ⟨"Mortal77", [⟨none, 2, none, []⟩], 77, []⟩, ⟨"Mortal78", [⟨none, 2, none, []⟩], 78, []⟩, ⟨"Mortal79", [⟨none, 2, none, []⟩], 79, []⟩, ⟨"Mortal80", [⟨none, 2, none, []⟩], 80, []⟩, ⟨"Mortal81", [⟨none, 2, none, []⟩], 81, []⟩, ⟨"Mortal82", [⟨none, 2, none, []⟩], 82, []⟩, ⟨"Mortal83", [⟨none, 2, none, []⟩], 83, []⟩, ⟨"Mortal84", [⟨none, 2, none, []⟩], 84, []⟩, ⟨"Mortal85", [⟨none, 2, none, []⟩], 85, []⟩, ⟨"Mortal86", [⟨none, 2, none, []⟩], 86, []⟩, ⟨"Mortal87", [⟨none, 2, none, []⟩], 87, []⟩, ⟨"Mortal88", [⟨none, 2, none, []⟩], 88, []⟩, ⟨"Mortal89", [⟨none, 2, none, []⟩], 89, []⟩, ⟨"Mortal90", [⟨none, 2, none, []⟩], 90, []⟩, ⟨"Mortal91", [⟨none, 2, none, []⟩], 91, []⟩, ⟨"Mortal92", [⟨none, 2, none, []⟩], 92, []⟩, ⟨"Mortal93", [⟨none, 2, none, []⟩], 93, []⟩, ⟨"Mortal94", [⟨none, 2, none, []⟩], 94, []⟩, ⟨"Mortal95", [⟨none, 2, none, []⟩], 95, []⟩, ⟨"Mortal96", [⟨none, 2, none, []⟩], 96, []⟩, ⟨"Mortal97", [⟨none, 2, none, []⟩], 97, []⟩, ⟨"Mortal98", [⟨none, 2, none, []⟩], 98, []⟩, ⟨"Mortal99", [⟨none, 2, none, []⟩], 99, []⟩, ⟨"Mortal100", [⟨none, 2, none, []⟩], 100, []⟩, ⟨"Mortal101", [⟨none, 2, none, []⟩], 101, []⟩, ⟨"Mortal102", [⟨none, 2, none, []⟩], 102, []⟩, ⟨"Mortal103", [⟨none, 2, none, []⟩], 103, []⟩, ⟨"Mortal104", [⟨none, 2, none, []⟩], 104, []⟩, ⟨"Mortal105", [⟨none, 2, none, []⟩], 105, []⟩, ⟨"Mortal106", [⟨none, 2, none, []⟩], 106, []⟩, ⟨"Mortal107", [⟨none, 2, none, []⟩], 107, []⟩, ⟨"Mortal108", [⟨none, 2, none, []⟩], 108, []⟩, ⟨"Mortal109", [⟨none, 2, none, []⟩], 109, []⟩, ⟨"Mortal110", [⟨none, 2, none, []⟩], 110, []⟩, ⟨"Mortal111", [⟨none, 2, none, []⟩], 111, []⟩, ⟨"Mortal112", [⟨none, 2, none, []⟩], 112, []⟩, ⟨"Mortal113", [⟨none, 2, none, []⟩], 113, []⟩, ⟨"Mortal114", [⟨none, 2, none, []⟩], 114, []⟩, ⟨"Mortal115", [⟨none, 2, none, []⟩], 115, []⟩, ⟨"Mortal116", [⟨none, 2, none, []⟩], 116, []⟩, ⟨"Mortal117", [⟨none, 2, none, []⟩], 117, []⟩, ⟨"Mortal118", [⟨none, 2, none, []⟩], 118, []⟩, ⟨"Mortal119", [⟨none, 2, none, []⟩], 119, []⟩, ⟨"Mortal120", [⟨none, 2, none, []⟩], 120, []⟩, ⟨"Mortal121", [⟨none, 2, none, []⟩], 121, []⟩, ⟨"Mortal122", [⟨none, 2, none, []⟩], 122, []⟩, ⟨"Mortal123", [⟨none, 2, none, []⟩], 123, []⟩, ⟨"Mortal124", [⟨none, 2, none, []⟩], 124, []⟩, ⟨"Mortal125", [⟨none, 2, none, []⟩], 125, []⟩, ⟨"Mortal126", [⟨none, 2, none, []⟩], 126, []⟩, ⟨"Mortal127", [⟨none, 2, none, []⟩], 127, []⟩, ⟨"Mortal128", [⟨none, 2, none, []⟩], 128, []⟩, ⟨"Mortal129", [⟨none, 2, none, []⟩], 129, []⟩, ⟨"Mortal130", [⟨none, 2, none, []⟩], 130, []⟩, ⟨"Mortal131", [⟨none, 2, none, []⟩], 131, []⟩, ⟨"Mortal132", [⟨none, 2, none, []⟩], 132, []⟩, ⟨"Mortal133", [⟨none, 2, none, []⟩], 133, []⟩, ⟨"Mortal134", [⟨none, 2, none, []⟩], 134, []⟩, ⟨"Mortal135", [⟨none, 2, none, []⟩], 135, []⟩, ⟨"Mortal136", [⟨none, 2, none, []⟩], 136, []⟩, ⟨"Mortal137", [⟨none, 2, none, []⟩], 137, []⟩, ⟨"Mortal138", [⟨none, 2, none, []⟩], 138, []⟩, ⟨"Mortal139", [⟨none, 2, none, []⟩], 139, []⟩, ⟨"Mortal140", [⟨none, 2, none, []⟩], 140, []⟩, ⟨"Mortal141", [⟨none, 2, none, []⟩], 141, []⟩, ⟨"Mortal142", [⟨none, 2, none, []⟩], 142, []⟩, ⟨"Mortal143", [⟨none, 2, none, []⟩], 143, []⟩, ⟨"Mortal144", [⟨none, 2, none, []⟩], 144, []⟩, ⟨"Mortal145", [⟨none, 2, none, []⟩], 145, []⟩, ⟨"Mortal146", [⟨none, 2, none, []⟩], 146, []⟩, ⟨"Mortal147", [⟨none, 2, none, []⟩], 147, []⟩, ⟨"Mortal148", [⟨none, 2, none, []⟩], 148, []⟩, ⟨"Mortal149", [⟨none, 2, none, []⟩], 149, []⟩, ⟨"Mortal150", [⟨none, 2, none, []⟩], 150, []⟩, ⟨"Mortal151", [⟨none, 2, none, []⟩], 151, []⟩, ⟨"Mortal152", [⟨none, 2, none, []⟩], 152, []⟩, ⟨"Mortal153", [⟨none, 2, none, []⟩], 153, []⟩, ⟨"Mortal154", [⟨none, 2, none, []⟩], 154, []⟩, ⟨"Mortal155", [⟨none, 2, none, []⟩], 155, []⟩, ⟨"Mortal156", [⟨none, 2, none, []⟩], 156, []⟩, ⟨"Mortal157", [⟨none, 2, none, []⟩], 157, []⟩, ⟨"Mortal158", [⟨none, 2, none, []⟩], 158, []⟩, ⟨"Mortal159", [⟨none, 2, none, []⟩], 159, []⟩, ⟨"Mortal160", [⟨none, 2, none, []⟩], 160, []⟩, ⟨"Mortal161", [⟨none, 2, none, []⟩], 161, []⟩, ⟨"Mortal162", [⟨none, 2, none, []⟩], 162, []⟩, ⟨"Mortal163", [⟨none, 2, none, []⟩], 163, []⟩, ⟨"Mortal164", [⟨none, 2, none, []⟩], 164, []⟩, ⟨"Mortal165", [⟨none, 2, none, []⟩], 165, []⟩, ⟨"Mortal166", [⟨none, 2, none, []⟩], 166, []⟩, ⟨"Mortal167", [⟨none, 2, none, []⟩], 167, []⟩, ⟨"Mortal168", [⟨none, 2, none, []⟩], 168, []⟩, ⟨"Mortal169", [⟨none, 2, none, []⟩], 169, []⟩, ⟨"Mortal170", [⟨none, 2, none, []⟩], 170, []⟩, ⟨"Mortal171", [⟨none, 2, none, []⟩], 171, []⟩, ⟨"Mortal172", [⟨none, 2, none, []⟩], 172, []⟩, ⟨"Mortal173", [⟨none, 2, none, []⟩], 173, []⟩, ⟨"Mortal174", [⟨none, 2, none, []⟩], 174, []⟩, ⟨"Mortal175", [⟨none, 2, none, []⟩], 175, []⟩, ⟨"Mortal176", [⟨none, 2, none, []⟩], 176, []⟩, ⟨"Mortal177", [⟨none, 2, none, []⟩], 177, []⟩, ⟨"Mortal178", [⟨none, 2, none, []⟩], 178, []⟩, ⟨"Mortal179", [⟨none, 2, none, []⟩], 179, []⟩, ⟨"Mortal180", [⟨none, 2, none, []⟩], 180, []⟩, ⟨"Mortal181", [⟨none, 2, none, []⟩], 181, []⟩, ⟨"Mortal182", [⟨none, 2, none, []⟩], 182, []⟩, ⟨"Mortal183", [⟨none, 2, none, []⟩], 183, []⟩, ⟨"Mortal184", [⟨none, 2, none, []⟩], 184, []⟩, ⟨"Mortal185", [⟨none, 2, none, []⟩], 185, []⟩, ⟨"Mortal186", [⟨none, 2, none, []⟩], 186, []⟩, ⟨"Mortal187", [⟨none, 2, none, []⟩], 187, []⟩, ⟨"Mortal188", [⟨none, 2, none, []⟩], 188, []⟩, ⟨"Mortal189", [⟨none, 2, none, []⟩], 189, []⟩, ⟨"Mortal190", [⟨none, 2, none, []⟩], 190, []⟩, ⟨"Mortal191", [⟨none, 2, none, []⟩], 191, []⟩, ⟨"Mortal192", [⟨none, 2, none, []⟩], 192, []⟩, ⟨"Mortal193", [⟨none, 2, none, []⟩], 193, []⟩, ⟨"Mortal194", [⟨none, 2, none, []⟩], 194, []⟩, ⟨"Mortal195", [⟨none, 2, none, []⟩], 195, []⟩, ⟨"Mortal196", [⟨none, 2, none, []⟩], 196, []⟩, ⟨"Mortal197", [⟨none, 2, none, []⟩], 197, []⟩, ⟨"Mortal198", [⟨none, 2, none, []⟩], 198, []⟩, ⟨"Mortal199", [⟨none, 2, none, []⟩], 199, []⟩, ⟨"Mortal200", [⟨none, 2, none, []⟩], 200, []⟩, ⟨"Mortal201", [⟨none, 2, none, []⟩], 201, []⟩, ⟨"Mortal202", [⟨none, 2, none, []⟩], 202, []⟩, ⟨"Mortal203", [⟨none, 2, none, []⟩], 203, []⟩, ⟨"Mortal204", [⟨none, 2, none, []⟩], 204, []⟩, ⟨"Mortal205", [⟨none, 2, none, []⟩], 205, []⟩, ⟨"Mortal206", [⟨none, 2, none, []⟩], 206, []⟩, ⟨"Mortal207", [⟨none, 2, none, []⟩], 207, []⟩, ⟨"Mortal208", [⟨none, 2, none, []⟩], 208, []⟩, ⟨"Mortal209", [⟨none, 2, none, []⟩], 209, []⟩, ⟨"Mortal210", [⟨none, 2, none, []⟩], 210, []⟩, ⟨"Mortal211", [⟨none, 2, none, []⟩], 211, []⟩, ⟨"Mortal212", [⟨none, 2, none, []⟩], 212, []⟩, ⟨"Mortal213", [⟨none, 2, none, []⟩], 213, []⟩, ⟨"Mortal214", [⟨none, 2, none, []⟩], 214, []⟩, ⟨"Mortal215", [⟨none, 2, none, []⟩], 215, []⟩, ⟨"Mortal216", [⟨none, 2, none, []⟩], 216, []⟩, ⟨"Mortal217", [⟨none, 2, none, []⟩], 217, []⟩, ⟨"Mortal218", [⟨none, 2, none, []⟩], 218, []⟩, ⟨"Mortal219", [⟨none, 2, none, []⟩], 219, []⟩, ⟨"Mortal220", [⟨none, 2, none, []⟩], 220, []⟩, ⟨"Mortal221", [⟨none, 2, none, []⟩], 221, []⟩, ⟨"Mortal222", [⟨none, 2, none, []⟩], 222, []⟩, ⟨"Mortal223", [⟨none, 2, none, []⟩], 223, []⟩, ⟨"Mortal224", [⟨none, 2, none, []⟩], 224, []⟩, ⟨"Mortal225", [⟨none, 2, none, []⟩], 225, []⟩, ⟨"Mortal226", [⟨none, 2, none, []⟩], 226, []⟩, ⟨"Mortal227", [⟨none, 2, none, []⟩], 227, []⟩, ⟨"Mortal228", [⟨none, 2, none, []⟩], 228, []⟩, ⟨"Mortal229", [⟨none, 2, none, []⟩], 229, []⟩, ⟨"Mortal230", [⟨none, 2, none, []⟩], 230, []⟩, ⟨"Mortal231", [⟨none, 2, none, []⟩], 231, []⟩, ⟨"Mortal232", [⟨none, 2, none, []⟩], 232, []⟩, ⟨"Mortal233", [⟨none, 2, none, []⟩], 233, []⟩, ⟨"Mortal234", [⟨none, 2, none, []⟩], 234, []⟩, ⟨"Mortal235", [⟨none, 2, none, []⟩], 235, []⟩, ⟨"Mortal236", [⟨none, 2, none, []⟩], 236, []⟩, ⟨"Mortal237", [⟨none, 2, none, []⟩], 237, []⟩, ⟨"Mortal238", [⟨none, 2, none, []⟩], 238, []⟩, ⟨"Mortal239", [⟨none, 2, none, []⟩], 239, []⟩, ⟨"Mortal240", [⟨none, 2, none, []⟩], 240, []⟩, ⟨"Mortal241", [⟨none, 2, none, []⟩], 241, []⟩, ⟨"Mortal242", [⟨none, 2, none, []⟩], 242, []⟩, ⟨"Mortal243", [⟨none, 2, none, []⟩], 243, []⟩, ⟨"Mortal244", [⟨none, 2, none, []⟩], 244, []⟩, ⟨"Mortal245", [⟨none, 2, none, []⟩], 245, []⟩, ⟨"Mortal246", [⟨none, 2, none, []⟩], 246, []⟩, ⟨"Mortal247", [⟨none, 2, none, []⟩], 247, []⟩, ⟨"Mortal248", [⟨none, 2, none, []⟩], 248, []⟩, ⟨"Mortal249", [⟨none, 2, none, []⟩], 249, []⟩, ⟨"Mortal250", [⟨none, 2, none, []⟩], 250, []⟩, ⟨"Mortal251", [⟨none, 2, none, []⟩], 251, []⟩, ⟨"Mortal252", [⟨none, 2, none, []⟩], 252, []⟩, ⟨"Mortal253", [⟨none, 2, none, []⟩], 253, []⟩, ⟨"Mortal254", [⟨none, 2, none, []⟩], 254, []⟩, ⟨"Mortal255", [⟨none, 2, none, []⟩], 255, []⟩], []⟩,
   ⟨["frame_system", "extensions", "check_nonce", "CheckNonce"], [("T", none)], .composite [⟨none, 59, (some "T::Nonce"), []⟩], []⟩,
   ⟨["frame_system", "extensions", "check_weight", "CheckWeight"], [("T", none)], .composite [], []⟩,
   ⟨["pallet_transaction_payment", "ChargeTransactionPayment"], [("T", none)], .composite [⟨none, 63, (some "BalanceOf<T>"), []⟩], []⟩,
   ⟨["polkadot_runtime_common", "claims", "PrevalidateAttests"], [("T", none)], .composite [], []⟩,
   ⟨["frame_metadata_hash_extension", "CheckMetadataHash"], [("T", none)], .composite [⟨(some "mode"), 854, (some "Mode"), []⟩], []⟩,
   ⟨["frame_metadata_hash_extension", "Mode"], [], .variant [⟨"Disabled", [], 0, []⟩, ⟨"Enabled", [], 1, []⟩], []⟩,
   ⟨["polkadot_runtime", "Runtime"], [], .composite [], []⟩,
   ⟨["relay_common", "apis", "InflationInfo"], [], .composite [⟨(some "inflation"), 174, (some "sp_runtime::Perquintill"), []⟩, ⟨(some "next_mint"), 857, (some "(polkadot_primitives::Balance, polkadot_primitives::Balance)"), []⟩], []⟩,
   ⟨[], [], .tuple [6, 6], []⟩,
   ⟨["sp_runtime", "generic", "block", "Block"], [("Header", (some 104)), ("Extrinsic", (some 859))], .composite [⟨(some "header"), 104, (some "Header"), []⟩, ⟨(some "extrinsics"), 860, (some "Vec<Extrinsic>"), []⟩], []⟩,
   ⟨["sp_runtime", "generic", "unchecked_extrinsic", "UncheckedExtrinsic"], [("Address", (some 113)), ("Call", (some 93)), ("Signature", (some 341)), ("Extra", (some 842))], .composite [⟨none, 14, none, []⟩], []⟩,
   ⟨[], [], .sequence 859, []⟩,
   ⟨["sp_runtime", "ExtrinsicInclusionMode"], [], .variant [⟨"AllExtrinsics", [], 0, []⟩, ⟨"OnlyInherents", [], 1, []⟩], []⟩,
   ⟨["sp_core", "OpaqueMetadata"], [], .composite [⟨none, 14, (some "Vec<u8>"), []⟩], []⟩,
   ⟨["Option"], [("T", (some 862))], .variant [⟨"None", [], 0, []⟩, ⟨"Some", [⟨none, 862, none, []⟩], 1, []⟩], []⟩]

/-- Types 864 to 895 of `for_tests/polkadot1003003_v15`. -/
def types27 : List Typ :=
  [⟨["Result"], [("T", (some 34)), ("E", (some 865))], .variant [⟨"Ok", [⟨none, 34, none, []⟩], 0, []⟩, ⟨"Err", [⟨none, 865, none, []⟩], 1, []⟩], []⟩,
   ⟨["sp_runtime", "transaction_validity", "TransactionValidityError"], [], .variant [⟨"Invalid", [⟨none, 866, (some "InvalidTransaction"), []⟩], 0, []⟩, ⟨"Unknown", [⟨none, 867, (some "UnknownTransaction"), []⟩], 1, []⟩], []⟩,
   ⟨["sp_runtime", "transaction_validity", "InvalidTransaction"], [], .variant [⟨"Call", [], 0, []⟩, ⟨"Payment", [], 1, []⟩, ⟨"Future", [], 2, []⟩, ⟨"Stale", [], 3, []⟩, ⟨"BadProof", [], 4, []⟩, ⟨"AncientBirthBlock", [], 5, []⟩, ⟨"ExhaustsResources", [], 6, []⟩, ⟨"Custom", [⟨none, 2, (some "u8"), []⟩], 7, []⟩, ⟨"BadMandatory", [], 8, []⟩, ⟨"MandatoryValidation", [], 9, []⟩, ⟨"BadSigner", [], 10, []⟩], []⟩,
   ⟨["sp_runtime", "transaction_validity", "UnknownTransaction"], [], .variant [⟨"CannotLookup", [], 0, []⟩, ⟨"NoUnsignedValidator", [], 1, []⟩, ⟨"Custom", [⟨none, 2, (some "u8"), []⟩], 2, []⟩], []⟩,
   ⟨["sp_inherents", "InherentData"], [], .composite [⟨(some "data"), 869, (some "BTreeMap<InherentIdentifier, Vec<u8>>"), []⟩], []⟩,
   ⟨["BTreeMap"], [("K", (some 364)), ("V", (some 14))], .composite [⟨none, 870, none, []⟩], []⟩,
   ⟨[], [], .sequence 871, []⟩,
   ⟨[], [], .tuple [364, 14], []⟩,
   ⟨["sp_inherents", "CheckInherentsResult"], [], .composite [⟨(some "okay"), 8, (some "bool"), []⟩, ⟨(some "fatal_error"), 8, (some "bool"), []⟩, ⟨(some "errors"), 868, (some "InherentData"), []⟩], []⟩,
   ⟨["sp_runtime", "transaction_validity", "TransactionSource"], [], .variant [⟨"InBlock", [], 0, []⟩, ⟨"Local", [], 1, []⟩, ⟨"External", [], 2, []⟩], []⟩,
   ⟨["Result"], [("T", (some 875)), ("E", (some 865))], .variant [⟨"Ok", [⟨none, 875, none, []⟩], 0, []⟩, ⟨"Err", [⟨none, 865, none, []⟩], 1, []⟩], []⟩,
   ⟨["sp_runtime", "transaction_validity", "ValidTransaction"], [], .composite [⟨(some "priority"), 12, (some "TransactionPriority"), []⟩, ⟨(some "requires"), 97, (some "Vec<TransactionTag>"), []⟩, ⟨(some "provides"), 97, (some "Vec<TransactionTag>"), []⟩, ⟨(some "longevity"), 12, (some "TransactionLongevity"), []⟩, ⟨(some "propagate"), 8, (some "bool"), []⟩], []⟩,
   ⟨[], [], .tuple [723, 877], []⟩,
   ⟨["polkadot_primitives", "v7", "GroupRotationInfo"], [("N", (some 4))], .composite [⟨(some "session_start_block"), 4, (some "N"), []⟩, ⟨(some "group_rotation_frequency"), 4, (some "N"), []⟩, ⟨(some "now"), 4, (some "N"), []⟩], []⟩,
   ⟨[], [], .sequence 879, []⟩,
   ⟨["polkadot_primitives", "v7", "CoreState"], [("H", (some 13)), ("N", (some 4))], .variant [⟨"Occupied", [⟨none, 880, (some "OccupiedCore<H, N>"), []⟩], 0, []⟩, ⟨"Scheduled", [⟨none, 882, (some "ScheduledCore"), []⟩], 1, []⟩, ⟨"Free", [], 2, []⟩], []⟩,
   ⟨["polkadot_primitives", "v7", "OccupiedCore"], [("H", (some 13)), ("N", (some 4))], .composite [⟨(some "next_up_on_available"), 881, (some "Option<ScheduledCore>"), []⟩, ⟨(some "occupied_since"), 4, (some "N"), []⟩, ⟨(some "time_out_at"), 4, (some "N"), []⟩, ⟨(some "next_up_on_time_out"), 881, (some "Option<ScheduledCore>"), []⟩, ⟨(some "availability"), 292, (some "BitVec<u8, bitvec::order::Lsb0>"), []⟩, ⟨(some "group_responsible"), 477, (some "GroupIndex"), []⟩, ⟨(some "candidate_hash"), 315, (some "CandidateHash"), []⟩, ⟨(some "candidate_descriptor"), 299, (some "CandidateDescriptor<H>"), []⟩], []⟩,
   ⟨["Option"], [("T", (some 882))], .variant [⟨"None", [], 0, []⟩, ⟨"Some", [⟨none, 882, none, []⟩], 1, []⟩], []⟩,
   ⟨["polkadot_primitives", "v7", "ScheduledCore"], [], .composite [⟨(some "para_id"), 163, (some "Id"), []⟩, ⟨(some "collator"), 883, (some "Option<CollatorId>"), []⟩], []⟩,
   ⟨["Option"], [("T", (some 300))], .variant [⟨"None", [], 0, []⟩, ⟨"Some", [⟨none, 300, none, []⟩], 1, []⟩], []⟩,
   ⟨["polkadot_primitives", "v7", "OccupiedCoreAssumption"], [], .variant [⟨"Included", [], 0, []⟩, ⟨"TimedOut", [], 1, []⟩, ⟨"Free", [], 2, []⟩], []⟩,
   ⟨["Option"], [("T", (some 886))], .variant [⟨"None", [], 0, []⟩, ⟨"Some", [⟨none, 886, none, []⟩], 1, []⟩], []⟩,
   ⟨["polkadot_primitives", "v7", "PersistedValidationData"], [("H", (some 13)), ("N", (some 4))], .composite [⟨(some "parent_head"), 310, (some "HeadData"), []⟩, ⟨(some "relay_parent_number"), 4, (some "N"), []⟩, ⟨(some "relay_parent_storage_root"), 13, (some "H"), []⟩, ⟨(some "max_pov_size"), 4, (some "u32"), []⟩], []⟩,
   ⟨["Option"], [("T", (some 888))], .variant [⟨"None", [], 0, []⟩, ⟨"Some", [⟨none, 888, none, []⟩], 1, []⟩], []⟩,
   ⟨[], [], .tuple [886, 302], []⟩,
   ⟨["Option"], [("T", (some 298))], .variant [⟨"None", [], 0, []⟩, ⟨"Some", [⟨none, 298, none, []⟩], 1, []⟩], []⟩,
   ⟨[], [], .sequence 891, []⟩,
   ⟨["polkadot_primitives", "v7", "CandidateEvent"], [("H", (some 13))], .variant [⟨"CandidateBacked", [⟨none, 475, (some "CandidateReceipt<H>"), []⟩, ⟨none, 310, (some "HeadData"), []⟩, ⟨none, 476, (some "CoreIndex"), []⟩, ⟨none, 477, (some "GroupIndex"), []⟩], 0, []⟩, ⟨"CandidateIncluded", [⟨none, 475, (some "CandidateReceipt<H>"), []⟩, ⟨none, 310, (some "HeadData"), []⟩, ⟨none, 476, (some "CoreIndex"), []⟩, ⟨none, 477, (some "GroupIndex"), []⟩], 1, []⟩, ⟨"CandidateTimedOut", [⟨none, 475, (some "CandidateReceipt<H>"), []⟩, ⟨none, 310, (some "HeadData"), []⟩, ⟨none, 476, (some "CoreIndex"), []⟩], 2, []⟩], []⟩,
   ⟨["BTreeMap"], [("K", (some 163)), ("V", (some 755))], .composite [⟨none, 893, none, []⟩], []⟩,
   ⟨[], [], .sequence 894, []⟩,
   ⟨[], [], .tuple [163, 755], []⟩,
   ⟨["Option"], [("T", (some 717))], .variant [⟨"None", [], 0, []⟩, ⟨"Some", [⟨none, 717, none, []⟩], 1, []⟩], []⟩]

/-- Types 896 to 927 of `for_tests/polkadot1003003_v15`. -/
def types28 : List Typ :=
  [⟨["Option"], [("T", (some 761))], .variant [⟨"None", [], 0, []⟩, ⟨"Some", [⟨none, 761, none, []⟩], 1, []⟩], []⟩,
   ⟨["Option"], [("T", (some 302))], .variant [⟨"None", [], 0, []⟩, ⟨"Some", [⟨none, 302, none, []⟩], 1, []⟩], []⟩,
   ⟨[], [], .sequence 899, []⟩,
   ⟨[], [], .tuple [4, 315, 765], []⟩,
   ⟨["Option"], [("T", (some 278))], .variant [⟨"None", [], 0, []⟩, ⟨"Some", [⟨none, 278, none, []⟩], 1, []⟩], []⟩,
   ⟨[], [], .sequence 902, []⟩,
   ⟨[], [], .tuple [4, 315, 768], []⟩,
   ⟨["Option"], [("T", (some 904))], .variant [⟨"None", [], 0, []⟩, ⟨"Some", [⟨none, 904, none, []⟩], 1, []⟩], []⟩,
   ⟨["polkadot_primitives", "v7", "slashing", "OpaqueKeyOwnershipProof"], [], .composite [⟨none, 14, (some "Vec<u8>"), []⟩], []⟩,
   ⟨["Option"], [("T", (some 35))], .variant [⟨"None", [], 0, []⟩, ⟨"Some", [⟨none, 35, none, []⟩], 1, []⟩], []⟩,
   ⟨["Option"], [("T", (some 907))], .variant [⟨"None", [], 0, []⟩, ⟨"Some", [⟨none, 907, none, []⟩], 1, []⟩], []⟩,
   ⟨["polkadot_primitives", "v7", "async_backing", "BackingState"], [("H", (some 13)), ("N", (some 4))], .composite [⟨(some "constraints"), 908, (some "Constraints<N>"), []⟩, ⟨(some "pending_availability"), 916, (some "Vec<CandidatePendingAvailability<H, N>>"), []⟩], []⟩,
   ⟨["polkadot_primitives", "v7", "async_backing", "Constraints"], [("N", (some 4))], .composite [⟨(some "min_relay_parent_number"), 4, (some "N"), []⟩, ⟨(some "max_pov_size"), 4, (some "u32"), []⟩, ⟨(some "max_code_size"), 4, (some "u32"), []⟩, ⟨(some "ump_remaining"), 4, (some "u32"), []⟩, ⟨(some "ump_remaining_bytes"), 4, (some "u32"), []⟩, ⟨(some "max_ump_num_per_candidate"), 4, (some "u32"), []⟩, ⟨(some "dmp_remaining_messages"), 121, (some "Vec<N>"), []⟩, ⟨(some "hrmp_inbound"), 909, (some "InboundHrmpLimitations<N>"), []⟩, ⟨(some "hrmp_channels_out"), 910, (some "Vec<(Id, OutboundHrmpChannelLimitations)>"), []⟩, ⟨(some "max_hrmp_num_per_candidate"), 4, (some "u32"), []⟩, ⟨(some "required_parent"), 310, (some "HeadData"), []⟩, ⟨(some "validation_code_hash"), 302, (some "ValidationCodeHash"), []⟩, ⟨(some "upgrade_restriction"), 913, (some "Option<UpgradeRestriction>"), []⟩, ⟨(some "future_validation_code"), 914, (some "Option<(N, ValidationCodeHash)>"), []⟩], []⟩,
   ⟨["polkadot_primitives", "v7", "async_backing", "InboundHrmpLimitations"], [("N", (some 4))], .composite [⟨(some "valid_watermarks"), 121, (some "Vec<N>"), []⟩], []⟩,
   ⟨[], [], .sequence 911, []⟩,
   ⟨[], [], .tuple [163, 912], []⟩,
   ⟨["polkadot_primitives", "v7", "async_backing", "OutboundHrmpChannelLimitations"], [], .composite [⟨(some "bytes_remaining"), 4, (some "u32"), []⟩, ⟨(some "messages_remaining"), 4, (some "u32"), []⟩], []⟩,
   ⟨["Option"], [("T", (some 745))], .variant [⟨"None", [], 0, []⟩, ⟨"Some", [⟨none, 745, none, []⟩], 1, []⟩], []⟩,
   ⟨["Option"], [("T", (some 915))], .variant [⟨"None", [], 0, []⟩, ⟨"Some", [⟨none, 915, none, []⟩], 1, []⟩], []⟩,
   ⟨[], [], .tuple [4, 302], []⟩,
   ⟨[], [], .sequence 917, []⟩,
   ⟨["polkadot_primitives", "v7", "async_backing", "CandidatePendingAvailability"], [("H", (some 13)), ("N", (some 4))], .composite [⟨(some "candidate_hash"), 315, (some "CandidateHash"), []⟩, ⟨(some "descriptor"), 299, (some "CandidateDescriptor<H>"), []⟩, ⟨(some "commitments"), 303, (some "CandidateCommitments"), []⟩, ⟨(some "relay_parent_number"), 4, (some "N"), []⟩, ⟨(some "max_pov_size"), 4, (some "u32"), []⟩], []⟩,
   ⟨["BTreeMap"], [("K", (some 476)), ("V", (some 737))], .composite [⟨none, 919, none, []⟩], []⟩,
   ⟨[], [], .sequence 920, []⟩,
   ⟨[], [], .tuple [476, 737], []⟩,
   ⟨[], [], .sequence 298, []⟩,
   ⟨["Option"], [("T", (some 923))], .variant [⟨"None", [], 0, []⟩, ⟨"Some", [⟨none, 923, none, []⟩], 1, []⟩], []⟩,
   ⟨["sp_consensus_beefy", "ValidatorSet"], [("AuthorityId", (some 138))], .composite [⟨(some "validators"), 839, (some "Vec<AuthorityId>"), []⟩, ⟨(some "id"), 12, (some "ValidatorSetId"), []⟩], []⟩,
   ⟨["sp_runtime", "OpaqueValue"], [], .composite [⟨none, 14, (some "Vec<u8>"), []⟩], []⟩,
   ⟨["Option"], [("T", (some 924))], .variant [⟨"None", [], 0, []⟩, ⟨"Some", [⟨none, 924, none, []⟩], 1, []⟩], []⟩,
   ⟨["Result"], [("T", (some 13)), ("E", (some 927))], .variant [⟨"Ok", [⟨none, 13, none, []⟩], 0, []⟩, ⟨"Err", [⟨none, 927, none, []⟩], 1, []⟩], []⟩,
   ⟨["sp_mmr_primitives", "Error"], [], .variant [⟨"InvalidNumericOp", [], 0, []⟩, ⟨"Push", [], 1, []⟩, ⟨"GetRoot", [], 2, []⟩, ⟨"Commit", [], 3, []⟩, ⟨"GenerateProof", [], 4, []⟩, ⟨"Verify", [], 5, []⟩, ⟨"LeafNotFound", [], 6, []⟩, ⟨"PalletNotIncluded", [], 7, []⟩, ⟨"InvalidLeafIndex", [], 8, []⟩, ⟨"InvalidBestKnownBlock", [], 9, []⟩], []⟩]

/-- Types 928 to 959 of `for_tests/polkadot1003003_v15`. -/
def types29 : List Typ :=
  [⟨["Result"], [("T", (some 12)), ("E", (some 927))], .variant [⟨"Ok", [⟨none, 12, none, []⟩], 0, []⟩, ⟨"Err", [⟨none, 927, none, []⟩], 1, []⟩], []⟩,
   ⟨["Result"], [("T", (some 930)), ("E", (some 927))], .variant [⟨"Ok", [⟨none, 930, none, []⟩], 0, []⟩, ⟨"Err", [⟨none, 927, none, []⟩], 1, []⟩], []⟩,
   ⟨[], [], .tuple [931, 933], []⟩,
   ⟨[], [], .sequence 932, []⟩,
   ⟨["sp_mmr_primitives", "EncodableOpaqueLeaf"], [], .composite [⟨none, 14, (some "Vec<u8>"), []⟩], []⟩,
   ⟨["sp_mmr_primitives", "LeafProof"], [("Hash", (some 13))], .composite [⟨(some "leaf_indices"), 680, (some "Vec<LeafIndex>"), []⟩, ⟨(some "leaf_count"), 12, (some "NodeIndex"), []⟩, ⟨(some "items"), 101, (some "Vec<Hash>"), []⟩], []⟩,
   ⟨["Result"], [("T", (some 35)), ("E", (some 927))], .variant [⟨"Ok", [⟨none, 35, none, []⟩], 0, []⟩, ⟨"Err", [⟨none, 927, none, []⟩], 1, []⟩], []⟩,
   ⟨["sp_consensus_babe", "BabeConfiguration"], [], .composite [⟨(some "slot_duration"), 12, (some "u64"), []⟩, ⟨(some "epoch_length"), 12, (some "u64"), []⟩, ⟨(some "c"), 109, (some "(u64, u64)"), []⟩, ⟨(some "authorities"), 530, (some "Vec<(AuthorityId, BabeAuthorityWeight)>"), []⟩, ⟨(some "randomness"), 1, (some "Randomness"), []⟩, ⟨(some "allowed_slots"), 110, (some "AllowedSlots"), []⟩], []⟩,
   ⟨["sp_consensus_babe", "Epoch"], [], .composite [⟨(some "epoch_index"), 12, (some "u64"), []⟩, ⟨(some "start_slot"), 106, (some "Slot"), []⟩, ⟨(some "duration"), 12, (some "u64"), []⟩, ⟨(some "authorities"), 530, (some "Vec<(AuthorityId, BabeAuthorityWeight)>"), []⟩, ⟨(some "randomness"), 1, (some "Randomness"), []⟩, ⟨(some "config"), 539, (some "BabeEpochConfiguration"), []⟩], []⟩,
   ⟨["Option"], [("T", (some 938))], .variant [⟨"None", [], 0, []⟩, ⟨"Some", [⟨none, 938, none, []⟩], 1, []⟩], []⟩,
   ⟨["sp_consensus_babe", "OpaqueKeyOwnershipProof"], [], .composite [⟨none, 14, (some "Vec<u8>"), []⟩], []⟩,
   ⟨["Option"], [("T", (some 940))], .variant [⟨"None", [], 0, []⟩, ⟨"Some", [⟨none, 940, none, []⟩], 1, []⟩], []⟩,
   ⟨[], [], .sequence 941, []⟩,
   ⟨[], [], .tuple [14, 595], []⟩,
   ⟨["pallet_transaction_payment", "types", "RuntimeDispatchInfo"], [("Balance", (some 6)), ("Weight", (some 10))], .composite [⟨(some "weight"), 10, (some "Weight"), []⟩, ⟨(some "class"), 24, (some "DispatchClass"), []⟩, ⟨(some "partial_fee"), 6, (some "Balance"), []⟩], []⟩,
   ⟨["pallet_transaction_payment", "types", "FeeDetails"], [("Balance", (some 6))], .composite [⟨(some "inclusion_fee"), 944, (some "Option<InclusionFee<Balance>>"), []⟩, ⟨(some "tip"), 6, (some "Balance"), []⟩], []⟩,
   ⟨["Option"], [("T", (some 945))], .variant [⟨"None", [], 0, []⟩, ⟨"Some", [⟨none, 945, none, []⟩], 1, []⟩], []⟩,
   ⟨["pallet_transaction_payment", "types", "InclusionFee"], [("Balance", (some 6))], .composite [⟨(some "base_fee"), 6, (some "Balance"), []⟩, ⟨(some "len_fee"), 6, (some "Balance"), []⟩, ⟨(some "adjusted_weight_fee"), 6, (some "Balance"), []⟩], []⟩,
   ⟨["Result"], [("T", (some 947)), ("E", (some 948))], .variant [⟨"Ok", [⟨none, 947, none, []⟩], 0, []⟩, ⟨"Err", [⟨none, 948, none, []⟩], 1, []⟩], []⟩,
   ⟨[], [], .sequence 431, []⟩,
   ⟨["xcm_runtime_apis", "fees", "Error"], [], .variant [⟨"Unimplemented", [], 0, []⟩, ⟨"VersionedConversionFailed", [], 1, []⟩, ⟨"WeightNotComputable", [], 2, []⟩, ⟨"UnhandledXcmVersion", [], 3, []⟩, ⟨"AssetNotFound", [], 4, []⟩, ⟨"Unroutable", [], 5, []⟩], []⟩,
   ⟨["Result"], [("T", (some 10)), ("E", (some 948))], .variant [⟨"Ok", [⟨none, 10, none, []⟩], 0, []⟩, ⟨"Err", [⟨none, 948, none, []⟩], 1, []⟩], []⟩,
   ⟨["Result"], [("T", (some 6)), ("E", (some 948))], .variant [⟨"Ok", [⟨none, 6, none, []⟩], 0, []⟩, ⟨"Err", [⟨none, 948, none, []⟩], 1, []⟩], []⟩,
   ⟨["Result"], [("T", (some 418)), ("E", (some 948))], .variant [⟨"Ok", [⟨none, 418, none, []⟩], 0, []⟩, ⟨"Err", [⟨none, 948, none, []⟩], 1, []⟩], []⟩,
   ⟨["Result"], [("T", (some 953)), ("E", (some 959))], .variant [⟨"Ok", [⟨none, 953, none, []⟩], 0, []⟩, ⟨"Err", [⟨none, 959, none, []⟩], 1, []⟩], []⟩,
   ⟨["xcm_runtime_apis", "dry_run", "CallDryRunEffects"], [("Event", (some 21))], .composite [⟨(some "execution_result"), 450, (some "DispatchResultWithPostInfo"), []⟩, ⟨(some "emitted_events"), 954, (some "Vec<Event>"), []⟩, ⟨(some "local_xcm"), 955, (some "Option<VersionedXcm<()>>"), []⟩, ⟨(some "forwarded_xcms"), 956, (some "Vec<(VersionedLocation, Vec<VersionedXcm<()>>)>"), []⟩], []⟩,
   ⟨[], [], .sequence 21, []⟩,
   ⟨["Option"], [("T", (some 354))], .variant [⟨"None", [], 0, []⟩, ⟨"Some", [⟨none, 354, none, []⟩], 1, []⟩], []⟩,
   ⟨[], [], .sequence 957, []⟩,
   ⟨[], [], .tuple [81, 958], []⟩,
   ⟨[], [], .sequence 354, []⟩,
   ⟨["xcm_runtime_apis", "dry_run", "Error"], [], .variant [⟨"Unimplemented", [], 0, []⟩, ⟨"VersionedConversionFailed", [], 1, []⟩], []⟩]

/-- Types 960 to 967 of `for_tests/polkadot1003003_v15`. -/
def types30 : List Typ :=
  [⟨["Result"], [("T", (some 961)), ("E", (some 959))], .variant [⟨"Ok", [⟨none, 961, none, []⟩], 0, []⟩, ⟨"Err", [⟨none, 959, none, []⟩], 1, []⟩], []⟩,
   ⟨["xcm_runtime_apis", "dry_run", "XcmDryRunEffects"], [("Event", (some 21))], .composite [⟨(some "execution_result"), 493, (some "Outcome"), []⟩, ⟨(some "emitted_events"), 954, (some "Vec<Event>"), []⟩, ⟨(some "forwarded_xcms"), 956, (some "Vec<(VersionedLocation, Vec<VersionedXcm<()>>)>"), []⟩], []⟩,
   ⟨["Result"], [("T", (some 0)), ("E", (some 963))], .variant [⟨"Ok", [⟨none, 0, none, []⟩], 0, []⟩, ⟨"Err", [⟨none, 963, none, []⟩], 1, []⟩], []⟩,
   ⟨["xcm_runtime_apis", "conversions", "Error"], [], .variant [⟨"Unsupported", [], 0, []⟩, ⟨"VersionedConversionFailed", [], 1, []⟩], []⟩,
   ⟨["Result"], [("T", (some 35)), ("E", (some 500))], .variant [⟨"Ok", [⟨none, 35, none, []⟩], 0, []⟩, ⟨"Err", [⟨none, 500, none, []⟩], 1, []⟩], []⟩,
   ⟨["Option"], [("T", (some 500))], .variant [⟨"None", [], 0, []⟩, ⟨"Some", [⟨none, 500, none, []⟩], 1, []⟩], []⟩,
   ⟨[], [], .sequence 500, []⟩,
   ⟨["polkadot_runtime", "RuntimeError"], [], .variant [⟨"System", [⟨none, 512, (some "frame_system::Error<Runtime>"), []⟩], 0, []⟩, ⟨"Scheduler", [⟨none, 518, (some "pallet_scheduler::Error<Runtime>"), []⟩], 1, []⟩, ⟨"Preimage", [⟨none, 527, (some "pallet_preimage::Error<Runtime>"), []⟩], 10, []⟩, ⟨"Babe", [⟨none, 543, (some "pallet_babe::Error<Runtime>"), []⟩], 2, []⟩, ⟨"Indices", [⟨none, 545, (some "pallet_indices::Error<Runtime>"), []⟩], 4, []⟩, ⟨"Balances", [⟨none, 564, (some "pallet_balances::Error<Runtime>"), []⟩], 5, []⟩, ⟨"Staking", [⟨none, 588, (some "pallet_staking::Error<Runtime>"), []⟩], 7, []⟩, ⟨"Session", [⟨none, 596, (some "pallet_session::Error<Runtime>"), []⟩], 9, []⟩, ⟨"Grandpa", [⟨none, 600, (some "pallet_grandpa::Error<Runtime>"), []⟩], 11, []⟩, ⟨"Treasury", [⟨none, 609, (some "pallet_treasury::Error<Runtime>"), []⟩], 19, []⟩, ⟨"ConvictionVoting", [⟨none, 622, (some "pallet_conviction_voting::Error<Runtime>"), []⟩], 20, []⟩, ⟨"Referenda", [⟨none, 640, (some "pallet_referenda::Error<Runtime>"), []⟩], 21, []⟩, ⟨"Whitelist", [⟨none, 641, (some "pallet_whitelist::Error<Runtime>"), []⟩], 23, []⟩, ⟨"Claims", [⟨none, 642, (some "claims::Error<Runtime>"), []⟩], 24, []⟩, ⟨"Vesting", [⟨none, 646, (some "pallet_vesting::Error<Runtime>"), []⟩], 25, []⟩, ⟨"Utility", [⟨none, 647, (some "pallet_utility::Error<Runtime>"), []⟩], 26, []⟩, ⟨"Proxy", [⟨none, 656, (some "pallet_proxy::Error<Runtime>"), []⟩], 29, []⟩, ⟨"Multisig", [⟨none, 660, (some "pallet_multisig::Error<Runtime>"), []⟩], 30, []⟩, ⟨"Bounties", [⟨none, 664, (some "pallet_bounties::Error<Runtime>"), []⟩], 34, []⟩, ⟨"ChildBounties", [⟨none, 667, (some "pallet_child_bounties::Error<Runtime>"), []⟩], 38, []⟩, ⟨"ElectionProviderMultiPhase", [⟨none, 677, (some "pallet_election_provider_multi_phase::Error<Runtime>"), []⟩], 36, []⟩, ⟨"VoterList", [⟨none, 681, (some "pallet_bags_list::Error<Runtime, pallet_bags_list::Instance1>"), []⟩], 37, []⟩, ⟨"NominationPools", [⟨none, 699, (some "pallet_nomination_pools::Error<Runtime>"), []⟩], 39, []⟩, ⟨"FastUnstake", [⟨none, 704, (some "pallet_fast_unstake::Error<Runtime>"), []⟩], 40, []⟩, ⟨"Configuration", [⟨none, 708, (some "parachains_configuration::Error<Runtime>"), []⟩], 51, []⟩, ⟨"ParaInclusion", [⟨none, 716, (some "parachains_inclusion::Error<Runtime>"), []⟩], 53, []⟩, ⟨"ParaInherent", [⟨none, 722, (some "parachains_paras_inherent::Error<Runtime>"), []⟩], 54, []⟩, ⟨"Paras", [⟨none, 747, (some "parachains_paras::Error<Runtime>"), []⟩], 56, []⟩, ⟨"Hrmp", [⟨none, 759, (some "parachains_hrmp::Error<Runtime>"), []⟩], 60, []⟩, ⟨"ParasDisputes", [⟨none, 767, (some "parachains_disputes::Error<Runtime>"), []⟩], 62, []⟩, ⟨"ParasSlashing", [⟨none, 772, (some "parachains_slashing::Error<Runtime>"), []⟩], 63, []⟩, ⟨"OnDemand", [⟨none, 784, (some "parachains_assigner_on_demand::Error<Runtime>"), []⟩], 64, []⟩, ⟨"CoretimeAssignmentProvider", [⟨none, 795, (some "parachains_assigner_coretime::Error<Runtime>"), []⟩], 65, []⟩, ⟨"Registrar", [⟨none, 797, (some "paras_registrar::Error<Runtime>"), []⟩], 70, []⟩, ⟨"Slots", [⟨none, 799, (some "slots::Error<Runtime>"), []⟩], 71, []⟩, ⟨"Auctions", [⟨none, 804, (some "auctions::Error<Runtime>"), []⟩], 72, []⟩, ⟨"Crowdloan", [⟨none, 807, (some "crowdloan::Error<Runtime>"), []⟩], 73, []⟩, ⟨"Coretime", [⟨none, 808, (some "coretime::Error<Runtime>"), []⟩], 74, []⟩, ⟨"StateTrieMigration", [⟨none, 491, (some "pallet_state_trie_migration::Error<Runtime>"), []⟩], 98, []⟩, ⟨"XcmPallet", [⟨none, 829, (some "pallet_xcm::Error<Runtime>"), []⟩], 99, []⟩, ⟨"MessageQueue", [⟨none, 836, (some "pallet_message_queue::Error<Runtime>"), []⟩], 100, []⟩, ⟨"AssetRate", [⟨none, 837, (some "pallet_asset_rate::Error<Runtime>"), []⟩], 101, []⟩, ⟨"Beefy", [⟨none, 840, (some "pallet_beefy::Error<Runtime>"), []⟩], 200, []⟩], []⟩]

/-- The types of `for_tests/polkadot1003003_v15`. -/
def types : List Typ :=
  types0 ++ (types1 ++ (types2 ++ (types3 ++ (types4 ++ (types5 ++ (types6 ++ (types7 ++ (types8 ++ (types9 ++ (types10 ++ (types11 ++ (types12 ++ (types13 ++ (types14 ++ (types15 ++ (types16 ++ (types17 ++ (types18 ++ (types19 ++ (types20 ++ (types21 ++ (types22 ++ (types23 ++ (types24 ++ (types25 ++ (types26 ++ (types27 ++ (types28 ++ (types29 ++ (types30))))))))))))))))))))))))))))))

end Verif.Polkadot
