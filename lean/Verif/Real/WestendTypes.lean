import Verif.Model.Metadata
/-! Generated by `tools/gen_westend.py` from `/repo/for_tests/westend9111` (documentation texts left out). -/
namespace Verif.Westend

/-- Types 0 to 31 of `for_tests/westend9111`. -/
def types0 : List Typ :=
  [⟨["sp_core", "crypto", "AccountId32"], [], .composite [⟨none, 1, (some "[u8; 32]"), []⟩], []⟩,
   ⟨[], [], .array 32 2, []⟩,
   ⟨[], [], .primitive .u8, []⟩,
   ⟨["frame_system", "AccountInfo"], [("Index", (some 4)), ("AccountData", (some 5))], .composite [⟨(some "nonce"), 4, (some "Index"), []⟩, ⟨(some "consumers"), 4, (some "RefCount"), []⟩, ⟨(some "providers"), 4, (some "RefCount"), []⟩, ⟨(some "sufficients"), 4, (some "RefCount"), []⟩, ⟨(some "data"), 5, (some "AccountData"), []⟩], []⟩,
   ⟨[], [], .primitive .u32, []⟩,
   ⟨["pallet_balances", "AccountData"], [("Balance", (some 6))], .composite [⟨(some "free"), 6, (some "Balance"), []⟩, ⟨(some "reserved"), 6, (some "Balance"), []⟩, ⟨(some "misc_frozen"), 6, (some "Balance"), []⟩, ⟨(some "fee_frozen"), 6, (some "Balance"), []⟩], []⟩,
   ⟨[], [], .primitive .u128, []⟩,
   ⟨["frame_support", "weights", "PerDispatchClass"], [("T", (some 8))], .composite [⟨(some "normal"), 8, (some "T"), []⟩, ⟨(some "operational"), 8, (some "T"), []⟩, ⟨(some "mandatory"), 8, (some "T"), []⟩], []⟩,
   ⟨[], [], .primitive .u64, []⟩,
   ⟨["primitive_types", "H256"], [], .composite [⟨none, 1, (some "[u8; 32]"), []⟩], []⟩,
   ⟨[], [], .sequence 2, []⟩,
   ⟨["sp_runtime", "generic", "digest", "Digest"], [("Hash", (some 9))], .composite [⟨(some "logs"), 12, (some "Vec<DigestItem<Hash>>"), []⟩], []⟩,
   ⟨[], [], .sequence 13, []⟩,
   ⟨["sp_runtime", "generic", "digest", "DigestItem"], [("Hash", (some 9))], .variant [⟨"ChangesTrieRoot", [⟨none, 9, (some "Hash"), []⟩], 2, []⟩, ⟨"PreRuntime", [⟨none, 14, (some "ConsensusEngineId"), []⟩, ⟨none, 10, (some "Vec<u8>"), []⟩], 6, []⟩, ⟨"Consensus", [⟨none, 14, (some "ConsensusEngineId"), []⟩, ⟨none, 10, (some "Vec<u8>"), []⟩], 4, []⟩, ⟨"Seal", [⟨none, 14, (some "ConsensusEngineId"), []⟩, ⟨none, 10, (some "Vec<u8>"), []⟩], 5, []⟩, ⟨"ChangesTrieSignal", [⟨none, 15, (some "ChangesTrieSignal"), []⟩], 7, []⟩, ⟨"Other", [⟨none, 10, (some "Vec<u8>"), []⟩], 0, []⟩, ⟨"RuntimeEnvironmentUpdated", [], 8, []⟩], []⟩,
   ⟨[], [], .array 4 2, []⟩,
   ⟨["sp_runtime", "generic", "digest", "ChangesTrieSignal"], [], .variant [⟨"NewConfiguration", [⟨none, 16, (some "Option<ChangesTrieConfiguration>"), []⟩], 0, []⟩], []⟩,
   ⟨["Option"], [("T", (some 17))], .variant [⟨"None", [], 0, []⟩, ⟨"Some", [⟨none, 17, none, []⟩], 1, []⟩], []⟩,
   ⟨["sp_core", "changes_trie", "ChangesTrieConfiguration"], [], .composite [⟨(some "digest_interval"), 4, (some "u32"), []⟩, ⟨(some "digest_levels"), 4, (some "u32"), []⟩], []⟩,
   ⟨[], [], .sequence 19, []⟩,
   ⟨["frame_system", "EventRecord"], [("E", (some 20)), ("T", (some 9))], .composite [⟨(some "phase"), 127, (some "Phase"), []⟩, ⟨(some "event"), 20, (some "E"), []⟩, ⟨(some "topics"), 128, (some "Vec<T>"), []⟩], []⟩,
   ⟨["westend_runtime", "Event"], [], .variant [⟨"System", [⟨none, 21, (some "frame_system::Event<Runtime>"), []⟩], 0, []⟩, ⟨"Indices", [⟨none, 28, (some "pallet_indices::Event<Runtime>"), []⟩], 3, []⟩, ⟨"Balances", [⟨none, 29, (some "pallet_balances::Event<Runtime>"), []⟩], 4, []⟩, ⟨"Staking", [⟨none, 31, (some "pallet_staking::Event<Runtime>"), []⟩], 6, []⟩, ⟨"Offences", [⟨none, 32, (some "pallet_offences::Event"), []⟩], 7, []⟩, ⟨"Session", [⟨none, 34, (some "pallet_session::Event"), []⟩], 8, []⟩, ⟨"Grandpa", [⟨none, 35, (some "pallet_grandpa::Event"), []⟩], 10, []⟩, ⟨"ImOnline", [⟨none, 40, (some "pallet_im_online::Event<Runtime>"), []⟩], 11, []⟩, ⟨"Utility", [⟨none, 49, (some "pallet_utility::Event"), []⟩], 16, []⟩, ⟨"Identity", [⟨none, 50, (some "pallet_identity::Event<Runtime>"), []⟩], 17, []⟩, ⟨"Recovery", [⟨none, 51, (some "pallet_recovery::Event<Runtime>"), []⟩], 18, []⟩, ⟨"Vesting", [⟨none, 52, (some "pallet_vesting::Event<Runtime>"), []⟩], 19, []⟩, ⟨"Scheduler", [⟨none, 53, (some "pallet_scheduler::Event<Runtime>"), []⟩], 20, []⟩, ⟨"Sudo", [⟨none, 58, (some "pallet_sudo::Event<Runtime>"), []⟩], 21, []⟩, ⟨"Proxy", [⟨none, 59, (some "pallet_proxy::Event<Runtime>"), []⟩], 22, []⟩, ⟨"Multisig", [⟨none, 62, (some "pallet_multisig::Event<Runtime>"), []⟩], 23, []⟩, ⟨"ElectionProviderMultiPhase", [⟨none, 64, (some "pallet_election_provider_multi_phase::Event<Runtime>"), []⟩], 24, []⟩, ⟨"BagsList", [⟨none, 68, (some "pallet_bags_list::Event<Runtime>"), []⟩], 25, []⟩, ⟨"ParaInclusion", [⟨none, 69, (some "parachains_inclusion::Event<Runtime>"), []⟩], 44, []⟩, ⟨"Paras", [⟨none, 81, (some "parachains_paras::Event"), []⟩], 47, []⟩, ⟨"Ump", [⟨none, 82, (some "parachains_ump::Event"), []⟩], 50, []⟩, ⟨"Hrmp", [⟨none, 85, (some "parachains_hrmp::Event<Runtime>"), []⟩], 51, []⟩, ⟨"Registrar", [⟨none, 87, (some "paras_registrar::Event<Runtime>"), []⟩], 60, []⟩, ⟨"Slots", [⟨none, 88, (some "slots::Event<Runtime>"), []⟩], 61, []⟩, ⟨"Auctions", [⟨none, 89, (some "auctions::Event<Runtime>"), []⟩], 63, []⟩, ⟨"Crowdloan", [⟨none, 90, (some "crowdloan::Event<Runtime>"), []⟩], 64, []⟩, ⟨"XcmPallet", [⟨none, 91, (some "pallet_xcm::Event<Runtime>"), []⟩], 99, []⟩], []⟩,
   ⟨["frame_system", "pallet", "Event"], [("T", none)], .variant [⟨"ExtrinsicSuccess", [⟨none, 22, (some "DispatchInfo"), []⟩], 0, []⟩, ⟨"ExtrinsicFailed", [⟨none, 25, (some "DispatchError"), []⟩, ⟨none, 22, (some "DispatchInfo"), []⟩], 1, []⟩, ⟨"CodeUpdated", [], 2, []⟩, ⟨"NewAccount", [⟨none, 0, (some "T::AccountId"), []⟩], 3, []⟩, ⟨"KilledAccount", [⟨none, 0, (some "T::AccountId"), []⟩], 4, []⟩, ⟨"Remarked", [⟨none, 0, (some "T::AccountId"), []⟩, ⟨none, 9, (some "T::Hash"), []⟩], 5, []⟩], []⟩,
   ⟨["frame_support", "weights", "DispatchInfo"], [], .composite [⟨(some "weight"), 8, (some "Weight"), []⟩, ⟨(some "class"), 23, (some "DispatchClass"), []⟩, ⟨(some "pays_fee"), 24, (some "Pays"), []⟩], []⟩,
   ⟨["frame_support", "weights", "DispatchClass"], [], .variant [⟨"Normal", [], 0, []⟩, ⟨"Operational", [], 1, []⟩, ⟨"Mandatory", [], 2, []⟩], []⟩,
   ⟨["frame_support", "weights", "Pays"], [], .variant [⟨"Yes", [], 0, []⟩, ⟨"No", [], 1, []⟩], []⟩,
   ⟨["sp_runtime", "DispatchError"], [], .variant [⟨"Other", [], 0, []⟩, ⟨"CannotLookup", [], 1, []⟩, ⟨"BadOrigin", [], 2, []⟩, ⟨"Module", [⟨(some "index"), 2, (some "u8"), []⟩, ⟨(some "error"), 2, (some "u8"), []⟩], 3, []⟩, ⟨"ConsumerRemaining", [], 4, []⟩, ⟨"NoProviders", [], 5, []⟩, ⟨"Token", [⟨none, 26, (some "TokenError"), []⟩], 6, []⟩, ⟨"Arithmetic", [⟨none, 27, (some "ArithmeticError"), []⟩], 7, []⟩], []⟩,
   ⟨["sp_runtime", "TokenError"], [], .variant [⟨"NoFunds", [], 0, []⟩, ⟨"WouldDie", [], 1, []⟩, ⟨"BelowMinimum", [], 2, []⟩, ⟨"CannotCreate", [], 3, []⟩, ⟨"UnknownAsset", [], 4, []⟩, ⟨"Frozen", [], 5, []⟩, ⟨"Unsupported", [], 6, []⟩], []⟩,
   ⟨["sp_runtime", "ArithmeticError"], [], .variant [⟨"Underflow", [], 0, []⟩, ⟨"Overflow", [], 1, []⟩, ⟨"DivisionByZero", [], 2, []⟩], []⟩,
   ⟨["pallet_indices", "pallet", "Event"], [("T", none)], .variant [⟨"IndexAssigned", [⟨none, 0, (some "T::AccountId"), []⟩, ⟨none, 4, (some "T::AccountIndex"), []⟩], 0, []⟩, ⟨"IndexFreed", [⟨none, 4, (some "T::AccountIndex"), []⟩], 1, []⟩, ⟨"IndexFrozen", [⟨none, 4, (some "T::AccountIndex"), []⟩, ⟨none, 0, (some "T::AccountId"), []⟩], 2, []⟩], []⟩,
   ⟨["pallet_balances", "pallet", "Event"], [("T", none), ("I", none)], .variant [⟨"Endowed", [⟨none, 0, (some "T::AccountId"), []⟩, ⟨none, 6, (some "T::Balance"), []⟩], 0, []⟩, ⟨"DustLost", [⟨none, 0, (some "T::AccountId"), []⟩, ⟨none, 6, (some "T::Balance"), []⟩], 1, []⟩, ⟨"Transfer", [⟨none, 0, (some "T::AccountId"), []⟩, ⟨none, 0, (some "T::AccountId"), []⟩, ⟨none, 6, (some "T::Balance"), []⟩], 2, []⟩, ⟨"BalanceSet", [⟨none, 0, (some "T::AccountId"), []⟩, ⟨none, 6, (some "T::Balance"), []⟩, ⟨none, 6, (some "T::Balance"), []⟩], 3, []⟩, ⟨"Deposit", [⟨none, 0, (some "T::AccountId"), []⟩, ⟨none, 6, (some "T::Balance"), []⟩], 4, []⟩, ⟨"Reserved", [⟨none, 0, (some "T::AccountId"), []⟩, ⟨none, 6, (some "T::Balance"), []⟩], 5, []⟩, ⟨"Unreserved", [⟨none, 0, (some "T::AccountId"), []⟩, ⟨none, 6, (some "T::Balance"), []⟩], 6, []⟩, ⟨"ReserveRepatriated", [⟨none, 0, (some "T::AccountId"), []⟩, ⟨none, 0, (some "T::AccountId"), []⟩, ⟨none, 6, (some "T::Balance"), []⟩, ⟨none, 30, (some "Status"), []⟩], 7, []⟩], []⟩,
   ⟨["frame_support", "traits", "tokens", "misc", "BalanceStatus"], [], .variant [⟨"Free", [], 0, []⟩, ⟨"Reserved", [], 1, []⟩], []⟩,
   ⟨["pallet_staking", "pallet", "pallet", "Event"], [("T", none)], .variant [⟨"EraPaid", [⟨none, 4, (some "EraIndex"), []⟩, ⟨none, 6, (some "BalanceOf<T>"), []⟩, ⟨none, 6, (some "BalanceOf<T>"), []⟩], 0, []⟩, ⟨"Rewarded", [⟨none, 0, (some "T::AccountId"), []⟩, ⟨none, 6, (some "BalanceOf<T>"), []⟩], 1, []⟩, ⟨"Slashed", [⟨none, 0, (some "T::AccountId"), []⟩, ⟨none, 6, (some "BalanceOf<T>"), []⟩], 2, []⟩, ⟨"OldSlashingReportDiscarded", [⟨none, 4, (some "SessionIndex"), []⟩], 3, []⟩, ⟨"StakersElected", [], 4, []⟩, ⟨"Bonded", [⟨none, 0, (some "T::AccountId"), []⟩, ⟨none, 6, (some "BalanceOf<T>"), []⟩], 5, []⟩, ⟨"Unbonded", [⟨none, 0, (some "T::AccountId"), []⟩, ⟨none, 6, (some "BalanceOf<T>"), []⟩], 6, []⟩, ⟨"Withdrawn", [⟨none, 0, (some "T::AccountId"), []⟩, ⟨none, 6, (some "BalanceOf<T>"), []⟩], 7, []⟩, ⟨"Kicked", [⟨none, 0, (some "T::AccountId"), []⟩, ⟨none, 0, (some "T::AccountId"), []⟩], 8, []⟩, ⟨"StakingElectionFailed", [], 9, []⟩, ⟨"Chilled", [⟨none, 0, (some "T::AccountId"), []⟩], 10, []⟩, ⟨"PayoutStarted", [⟨none, 4, (some "EraIndex"), []⟩, ⟨none, 0, (some "T::AccountId"), []⟩], 11, []⟩], []⟩]

/-- Types 32 to 63 of `for_tests/westend9111`. -/
def types1 : List Typ :=
  [⟨["pallet_offences", "pallet", "Event"], [], .variant [⟨"Offence", [⟨none, 33, (some "Kind"), []⟩, ⟨none, 10, (some "OpaqueTimeSlot"), []⟩], 0, []⟩], []⟩,
   ⟨[], [], .array 16 2, []⟩,
   ⟨["pallet_session", "pallet", "Event"], [], .variant [⟨"NewSession", [⟨none, 4, (some "SessionIndex"), []⟩], 0, []⟩], []⟩,
   ⟨["pallet_grandpa", "pallet", "Event"], [], .variant [⟨"NewAuthorities", [⟨none, 36, (some "AuthorityList"), []⟩], 0, []⟩, ⟨"Paused", [], 1, []⟩, ⟨"Resumed", [], 2, []⟩], []⟩,
   ⟨[], [], .sequence 37, []⟩,
   ⟨[], [], .tuple [38, 8], []⟩,
   ⟨["sp_finality_grandpa", "app", "Public"], [], .composite [⟨none, 39, (some "ed25519::Public"), []⟩], []⟩,
   ⟨["sp_core", "ed25519", "Public"], [], .composite [⟨none, 1, (some "[u8; 32]"), []⟩], []⟩,
   ⟨["pallet_im_online", "pallet", "Event"], [("T", none)], .variant [⟨"HeartbeatReceived", [⟨none, 41, (some "T::AuthorityId"), []⟩], 0, []⟩, ⟨"AllGood", [], 1, []⟩, ⟨"SomeOffline", [⟨none, 43, (some "Vec<IdentificationTuple<T>>"), []⟩], 2, []⟩], []⟩,
   ⟨["pallet_im_online", "sr25519", "app_sr25519", "Public"], [], .composite [⟨none, 42, (some "sr25519::Public"), []⟩], []⟩,
   ⟨["sp_core", "sr25519", "Public"], [], .composite [⟨none, 1, (some "[u8; 32]"), []⟩], []⟩,
   ⟨[], [], .sequence 44, []⟩,
   ⟨[], [], .tuple [0, 45], []⟩,
   ⟨["pallet_staking", "Exposure"], [("AccountId", (some 0)), ("Balance", (some 6))], .composite [⟨(some "total"), 46, (some "Balance"), []⟩, ⟨(some "own"), 46, (some "Balance"), []⟩, ⟨(some "others"), 47, (some "Vec<IndividualExposure<AccountId, Balance>>"), []⟩], []⟩,
   ⟨[], [], .compact 6, []⟩,
   ⟨[], [], .sequence 48, []⟩,
   ⟨["pallet_staking", "IndividualExposure"], [("AccountId", (some 0)), ("Balance", (some 6))], .composite [⟨(some "who"), 0, (some "AccountId"), []⟩, ⟨(some "value"), 46, (some "Balance"), []⟩], []⟩,
   ⟨["pallet_utility", "pallet", "Event"], [], .variant [⟨"BatchInterrupted", [⟨none, 4, (some "u32"), []⟩, ⟨none, 25, (some "DispatchError"), []⟩], 0, []⟩, ⟨"BatchCompleted", [], 1, []⟩, ⟨"ItemCompleted", [], 2, []⟩], []⟩,
   ⟨["pallet_identity", "pallet", "Event"], [("T", none)], .variant [⟨"IdentitySet", [⟨none, 0, (some "T::AccountId"), []⟩], 0, []⟩, ⟨"IdentityCleared", [⟨none, 0, (some "T::AccountId"), []⟩, ⟨none, 6, (some "BalanceOf<T>"), []⟩], 1, []⟩, ⟨"IdentityKilled", [⟨none, 0, (some "T::AccountId"), []⟩, ⟨none, 6, (some "BalanceOf<T>"), []⟩], 2, []⟩, ⟨"JudgementRequested", [⟨none, 0, (some "T::AccountId"), []⟩, ⟨none, 4, (some "RegistrarIndex"), []⟩], 3, []⟩, ⟨"JudgementUnrequested", [⟨none, 0, (some "T::AccountId"), []⟩, ⟨none, 4, (some "RegistrarIndex"), []⟩], 4, []⟩, ⟨"JudgementGiven", [⟨none, 0, (some "T::AccountId"), []⟩, ⟨none, 4, (some "RegistrarIndex"), []⟩], 5, []⟩, ⟨"RegistrarAdded", [⟨none, 4, (some "RegistrarIndex"), []⟩], 6, []⟩, ⟨"SubIdentityAdded", [⟨none, 0, (some "T::AccountId"), []⟩, ⟨none, 0, (some "T::AccountId"), []⟩, ⟨none, 6, (some "BalanceOf<T>"), []⟩], 7, []⟩, ⟨"SubIdentityRemoved", [⟨none, 0, (some "T::AccountId"), []⟩, ⟨none, 0, (some "T::AccountId"), []⟩, ⟨none, 6, (some "BalanceOf<T>"), []⟩], 8, []⟩, ⟨"SubIdentityRevoked", [⟨none, 0, (some "T::AccountId"), []⟩, ⟨none, 0, (some "T::AccountId"), []⟩, ⟨none, 6, (some "BalanceOf<T>"), []⟩], 9, []⟩], []⟩,
   ⟨["pallet_recovery", "pallet", "Event"], [("T", none)], .variant [⟨"RecoveryCreated", [⟨none, 0, (some "T::AccountId"), []⟩], 0, []⟩, ⟨"RecoveryInitiated", [⟨none, 0, (some "T::AccountId"), []⟩, ⟨none, 0, (some "T::AccountId"), []⟩], 1, []⟩, ⟨"RecoveryVouched", [⟨none, 0, (some "T::AccountId"), []⟩, ⟨none, 0, (some "T::AccountId"), []⟩, ⟨none, 0, (some "T::AccountId"), []⟩], 2, []⟩, ⟨"RecoveryClosed", [⟨none, 0, (some "T::AccountId"), []⟩, ⟨none, 0, (some "T::AccountId"), []⟩], 3, []⟩, ⟨"AccountRecovered", [⟨none, 0, (some "T::AccountId"), []⟩, ⟨none, 0, (some "T::AccountId"), []⟩], 4, []⟩, ⟨"RecoveryRemoved", [⟨none, 0, (some "T::AccountId"), []⟩], 5, []⟩], []⟩,
   ⟨["pallet_vesting", "pallet", "Event"], [("T", none)], .variant [⟨"VestingUpdated", [⟨none, 0, (some "T::AccountId"), []⟩, ⟨none, 6, (some "BalanceOf<T>"), []⟩], 0, []⟩, ⟨"VestingCompleted", [⟨none, 0, (some "T::AccountId"), []⟩], 1, []⟩], []⟩,
   ⟨["pallet_scheduler", "pallet", "Event"], [("T", none)], .variant [⟨"Scheduled", [⟨none, 4, (some "T::BlockNumber"), []⟩, ⟨none, 4, (some "u32"), []⟩], 0, []⟩, ⟨"Canceled", [⟨none, 4, (some "T::BlockNumber"), []⟩, ⟨none, 4, (some "u32"), []⟩], 1, []⟩, ⟨"Dispatched", [⟨none, 54, (some "TaskAddress<T::BlockNumber>"), []⟩, ⟨none, 55, (some "Option<Vec<u8>>"), []⟩, ⟨none, 56, (some "DispatchResult"), []⟩], 2, []⟩], []⟩,
   ⟨[], [], .tuple [4, 4], []⟩,
   ⟨["Option"], [("T", (some 10))], .variant [⟨"None", [], 0, []⟩, ⟨"Some", [⟨none, 10, none, []⟩], 1, []⟩], []⟩,
   ⟨["Result"], [("T", (some 57)), ("E", (some 25))], .variant [⟨"Ok", [⟨none, 57, none, []⟩], 0, []⟩, ⟨"Err", [⟨none, 25, none, []⟩], 1, []⟩], []⟩,
   ⟨[], [], .tuple [], []⟩,
   ⟨["pallet_sudo", "pallet", "Event"], [("T", none)], .variant [⟨"Sudid", [⟨none, 56, (some "DispatchResult"), []⟩], 0, []⟩, ⟨"KeyChanged", [⟨none, 0, (some "T::AccountId"), []⟩], 1, []⟩, ⟨"SudoAsDone", [⟨none, 56, (some "DispatchResult"), []⟩], 2, []⟩], []⟩,
   ⟨["pallet_proxy", "pallet", "Event"], [("T", none)], .variant [⟨"ProxyExecuted", [⟨none, 56, (some "DispatchResult"), []⟩], 0, []⟩, ⟨"AnonymousCreated", [⟨none, 0, (some "T::AccountId"), []⟩, ⟨none, 0, (some "T::AccountId"), []⟩, ⟨none, 60, (some "T::ProxyType"), []⟩, ⟨none, 61, (some "u16"), []⟩], 1, []⟩, ⟨"Announced", [⟨none, 0, (some "T::AccountId"), []⟩, ⟨none, 0, (some "T::AccountId"), []⟩, ⟨none, 9, (some "CallHashOf<T>"), []⟩], 2, []⟩, ⟨"ProxyAdded", [⟨none, 0, (some "T::AccountId"), []⟩, ⟨none, 0, (some "T::AccountId"), []⟩, ⟨none, 60, (some "T::ProxyType"), []⟩, ⟨none, 4, (some "T::BlockNumber"), []⟩], 3, []⟩], []⟩,
   ⟨["westend_runtime", "ProxyType"], [], .variant [⟨"Any", [], 0, []⟩, ⟨"NonTransfer", [], 1, []⟩, ⟨"Staking", [], 2, []⟩, ⟨"SudoBalances", [], 3, []⟩, ⟨"IdentityJudgement", [], 4, []⟩, ⟨"CancelProxy", [], 5, []⟩, ⟨"Auction", [], 6, []⟩], []⟩,
   ⟨[], [], .primitive .u16, []⟩,
   ⟨["pallet_multisig", "pallet", "Event"], [("T", none)], .variant [⟨"NewMultisig", [⟨none, 0, (some "T::AccountId"), []⟩, ⟨none, 0, (some "T::AccountId"), []⟩, ⟨none, 1, (some "CallHash"), []⟩], 0, []⟩, ⟨"MultisigApproval", [⟨none, 0, (some "T::AccountId"), []⟩, ⟨none, 63, (some "Timepoint<T::BlockNumber>"), []⟩, ⟨none, 0, (some "T::AccountId"), []⟩, ⟨none, 1, (some "CallHash"), []⟩], 1, []⟩, ⟨"MultisigExecuted", [⟨none, 0, (some "T::AccountId"), []⟩, ⟨none, 63, (some "Timepoint<T::BlockNumber>"), []⟩, ⟨none, 0, (some "T::AccountId"), []⟩, ⟨none, 1, (some "CallHash"), []⟩, ⟨none, 56, (some "DispatchResult"), []⟩], 2, []⟩, ⟨"MultisigCancelled", [⟨none, 0, (some "T::AccountId"), []⟩, ⟨none, 63, (some "Timepoint<T::BlockNumber>"), []⟩, ⟨none, 0, (some "T::AccountId"), []⟩, ⟨none, 1, (some "CallHash"), []⟩], 3, []⟩], []⟩,
   ⟨["pallet_multisig", "Timepoint"], [("BlockNumber", (some 4))], .composite [⟨(some "height"), 4, (some "BlockNumber"), []⟩, ⟨(some "index"), 4, (some "u32"), []⟩], []⟩]

/-- Types 64 to 95 of `for_tests/westend9111`. -/
def types2 : List Typ :=
  [⟨["pallet_election_provider_multi_phase", "pallet", "Event"], [("T", none)], .variant [⟨"SolutionStored", [⟨none, 65, (some "ElectionCompute"), []⟩, ⟨none, 66, (some "bool"), []⟩], 0, []⟩, ⟨"ElectionFinalized", [⟨none, 67, (some "Option<ElectionCompute>"), []⟩], 1, []⟩, ⟨"Rewarded", [⟨none, 0, (some "<T as frame_system::Config>::AccountId"), []⟩, ⟨none, 6, (some "BalanceOf<T>"), []⟩], 2, []⟩, ⟨"Slashed", [⟨none, 0, (some "<T as frame_system::Config>::AccountId"), []⟩, ⟨none, 6, (some "BalanceOf<T>"), []⟩], 3, []⟩, ⟨"SignedPhaseStarted", [⟨none, 4, (some "u32"), []⟩], 4, []⟩, ⟨"UnsignedPhaseStarted", [⟨none, 4, (some "u32"), []⟩], 5, []⟩], []⟩,
   ⟨["pallet_election_provider_multi_phase", "ElectionCompute"], [], .variant [⟨"OnChain", [], 0, []⟩, ⟨"Signed", [], 1, []⟩, ⟨"Unsigned", [], 2, []⟩, ⟨"Fallback", [], 3, []⟩, ⟨"Emergency", [], 4, []⟩], []⟩,
   ⟨[], [], .primitive .bool, []⟩,
   ⟨["Option"], [("T", (some 65))], .variant [⟨"None", [], 0, []⟩, ⟨"Some", [⟨none, 65, none, []⟩], 1, []⟩], []⟩,
   ⟨["pallet_bags_list", "pallet", "Event"], [("T", none)], .variant [⟨"Rebagged", [⟨none, 0, (some "T::AccountId"), []⟩, ⟨none, 8, (some "VoteWeight"), []⟩, ⟨none, 8, (some "VoteWeight"), []⟩], 0, []⟩], []⟩,
   ⟨["polkadot_runtime_parachains", "inclusion", "pallet", "Event"], [("T", none)], .variant [⟨"CandidateBacked", [⟨none, 70, (some "CandidateReceipt<T::Hash>"), []⟩, ⟨none, 78, (some "HeadData"), []⟩, ⟨none, 79, (some "CoreIndex"), []⟩, ⟨none, 80, (some "GroupIndex"), []⟩], 0, []⟩, ⟨"CandidateIncluded", [⟨none, 70, (some "CandidateReceipt<T::Hash>"), []⟩, ⟨none, 78, (some "HeadData"), []⟩, ⟨none, 79, (some "CoreIndex"), []⟩, ⟨none, 80, (some "GroupIndex"), []⟩], 1, []⟩, ⟨"CandidateTimedOut", [⟨none, 70, (some "CandidateReceipt<T::Hash>"), []⟩, ⟨none, 78, (some "HeadData"), []⟩, ⟨none, 79, (some "CoreIndex"), []⟩], 2, []⟩], []⟩,
   ⟨["polkadot_primitives", "v1", "CandidateReceipt"], [("H", (some 9))], .composite [⟨(some "descriptor"), 71, (some "CandidateDescriptor<H>"), []⟩, ⟨(some "commitments_hash"), 9, (some "Hash"), []⟩], []⟩,
   ⟨["polkadot_primitives", "v1", "CandidateDescriptor"], [("H", (some 9))], .composite [⟨(some "para_id"), 72, (some "Id"), []⟩, ⟨(some "relay_parent"), 9, (some "H"), []⟩, ⟨(some "collator"), 73, (some "CollatorId"), []⟩, ⟨(some "persisted_validation_data_hash"), 9, (some "Hash"), []⟩, ⟨(some "pov_hash"), 9, (some "Hash"), []⟩, ⟨(some "erasure_root"), 9, (some "Hash"), []⟩, ⟨(some "signature"), 74, (some "CollatorSignature"), []⟩, ⟨(some "para_head"), 9, (some "Hash"), []⟩, ⟨(some "validation_code_hash"), 77, (some "ValidationCodeHash"), []⟩], []⟩,
   ⟨["polkadot_parachain", "primitives", "Id"], [], .composite [⟨none, 4, (some "u32"), []⟩], []⟩,
   ⟨["polkadot_primitives", "v0", "collator_app", "Public"], [], .composite [⟨none, 42, (some "sr25519::Public"), []⟩], []⟩,
   ⟨["polkadot_primitives", "v0", "collator_app", "Signature"], [], .composite [⟨none, 75, (some "sr25519::Signature"), []⟩], []⟩,
   ⟨["sp_core", "sr25519", "Signature"], [], .composite [⟨none, 76, (some "[u8; 64]"), []⟩], []⟩,
   ⟨[], [], .array 64 2, []⟩,
   ⟨["polkadot_parachain", "primitives", "ValidationCodeHash"], [], .composite [⟨none, 9, (some "Hash"), []⟩], []⟩,
   ⟨["polkadot_parachain", "primitives", "HeadData"], [], .composite [⟨none, 10, (some "Vec<u8>"), []⟩], []⟩,
   ⟨["polkadot_primitives", "v1", "CoreIndex"], [], .composite [⟨none, 4, (some "u32"), []⟩], []⟩,
   ⟨["polkadot_primitives", "v1", "GroupIndex"], [], .composite [⟨none, 4, (some "u32"), []⟩], []⟩,
   ⟨["polkadot_runtime_parachains", "paras", "pallet", "Event"], [], .variant [⟨"CurrentCodeUpdated", [⟨none, 72, (some "ParaId"), []⟩], 0, []⟩, ⟨"CurrentHeadUpdated", [⟨none, 72, (some "ParaId"), []⟩], 1, []⟩, ⟨"CodeUpgradeScheduled", [⟨none, 72, (some "ParaId"), []⟩], 2, []⟩, ⟨"NewHeadNoted", [⟨none, 72, (some "ParaId"), []⟩], 3, []⟩, ⟨"ActionQueued", [⟨none, 72, (some "ParaId"), []⟩, ⟨none, 4, (some "SessionIndex"), []⟩], 4, []⟩], []⟩,
   ⟨["polkadot_runtime_parachains", "ump", "pallet", "Event"], [], .variant [⟨"InvalidFormat", [⟨none, 1, (some "MessageId"), []⟩], 0, []⟩, ⟨"UnsupportedVersion", [⟨none, 1, (some "MessageId"), []⟩], 1, []⟩, ⟨"ExecutedUpward", [⟨none, 1, (some "MessageId"), []⟩, ⟨none, 83, (some "Outcome"), []⟩], 2, []⟩, ⟨"WeightExhausted", [⟨none, 1, (some "MessageId"), []⟩, ⟨none, 8, (some "Weight"), []⟩, ⟨none, 8, (some "Weight"), []⟩], 3, []⟩, ⟨"UpwardMessagesReceived", [⟨none, 72, (some "ParaId"), []⟩, ⟨none, 4, (some "u32"), []⟩, ⟨none, 4, (some "u32"), []⟩], 4, []⟩, ⟨"OverweightEnqueued", [⟨none, 72, (some "ParaId"), []⟩, ⟨none, 1, (some "MessageId"), []⟩, ⟨none, 8, (some "OverweightIndex"), []⟩, ⟨none, 8, (some "Weight"), []⟩], 5, []⟩, ⟨"OverweightServiced", [⟨none, 8, (some "OverweightIndex"), []⟩, ⟨none, 8, (some "Weight"), []⟩], 6, []⟩], []⟩,
   ⟨["xcm", "v2", "traits", "Outcome"], [], .variant [⟨"Complete", [⟨none, 8, (some "Weight"), []⟩], 0, []⟩, ⟨"Incomplete", [⟨none, 8, (some "Weight"), []⟩, ⟨none, 84, (some "Error"), []⟩], 1, []⟩, ⟨"Error", [⟨none, 84, (some "Error"), []⟩], 2, []⟩], []⟩,
   ⟨["xcm", "v2", "traits", "Error"], [], .variant [⟨"Overflow", [], 0, []⟩, ⟨"Unimplemented", [], 1, []⟩, ⟨"UntrustedReserveLocation", [], 2, []⟩, ⟨"UntrustedTeleportLocation", [], 3, []⟩, ⟨"MultiLocationFull", [], 4, []⟩, ⟨"MultiLocationNotInvertible", [], 5, []⟩, ⟨"BadOrigin", [], 6, []⟩, ⟨"InvalidLocation", [], 7, []⟩, ⟨"AssetNotFound", [], 8, []⟩, ⟨"FailedToTransactAsset", [], 9, []⟩, ⟨"NotWithdrawable", [], 10, []⟩, ⟨"LocationCannotHold", [], 11, []⟩, ⟨"ExceedsMaxMessageSize", [], 12, []⟩, ⟨"DestinationUnsupported", [], 13, []⟩, ⟨"Transport", [], 14, []⟩, ⟨"Unroutable", [], 15, []⟩, ⟨"UnknownClaim", [], 16, []⟩, ⟨"FailedToDecode", [], 17, []⟩, ⟨"TooMuchWeightRequired", [], 18, []⟩, ⟨"NotHoldingFees", [], 19, []⟩, ⟨"TooExpensive", [], 20, []⟩, ⟨"Trap", [⟨none, 8, (some "u64"), []⟩], 21, []⟩, ⟨"UnhandledXcmVersion", [], 22, []⟩, ⟨"WeightLimitReached", [⟨none, 8, (some "Weight"), []⟩], 23, []⟩, ⟨"Barrier", [], 24, []⟩, ⟨"WeightNotComputable", [], 25, []⟩], []⟩,
   ⟨["polkadot_runtime_parachains", "hrmp", "pallet", "Event"], [("T", none)], .variant [⟨"OpenChannelRequested", [⟨none, 72, (some "ParaId"), []⟩, ⟨none, 72, (some "ParaId"), []⟩, ⟨none, 4, (some "u32"), []⟩, ⟨none, 4, (some "u32"), []⟩], 0, []⟩, ⟨"OpenChannelCanceled", [⟨none, 72, (some "ParaId"), []⟩, ⟨none, 86, (some "HrmpChannelId"), []⟩], 1, []⟩, ⟨"OpenChannelAccepted", [⟨none, 72, (some "ParaId"), []⟩, ⟨none, 72, (some "ParaId"), []⟩], 2, []⟩, ⟨"ChannelClosed", [⟨none, 72, (some "ParaId"), []⟩, ⟨none, 86, (some "HrmpChannelId"), []⟩], 3, []⟩], []⟩,
   ⟨["polkadot_parachain", "primitives", "HrmpChannelId"], [], .composite [⟨(some "sender"), 72, (some "Id"), []⟩, ⟨(some "recipient"), 72, (some "Id"), []⟩], []⟩,
   ⟨["polkadot_runtime_common", "paras_registrar", "pallet", "Event"], [("T", none)], .variant [⟨"Registered", [⟨none, 72, (some "ParaId"), []⟩, ⟨none, 0, (some "T::AccountId"), []⟩], 0, []⟩, ⟨"Deregistered", [⟨none, 72, (some "ParaId"), []⟩], 1, []⟩, ⟨"Reserved", [⟨none, 72, (some "ParaId"), []⟩, ⟨none, 0, (some "T::AccountId"), []⟩], 2, []⟩], []⟩,
   ⟨["polkadot_runtime_common", "slots", "pallet", "Event"], [("T", none)], .variant [⟨"NewLeasePeriod", [⟨none, 4, (some "LeasePeriodOf<T>"), []⟩], 0, []⟩, ⟨"Leased", [⟨none, 72, (some "ParaId"), []⟩, ⟨none, 0, (some "T::AccountId"), []⟩, ⟨none, 4, (some "LeasePeriodOf<T>"), []⟩, ⟨none, 4, (some "LeasePeriodOf<T>"), []⟩, ⟨none, 6, (some "BalanceOf<T>"), []⟩, ⟨none, 6, (some "BalanceOf<T>"), []⟩], 1, []⟩], []⟩,
   ⟨["polkadot_runtime_common", "auctions", "pallet", "Event"], [("T", none)], .variant [⟨"AuctionStarted", [⟨none, 4, (some "AuctionIndex"), []⟩, ⟨none, 4, (some "LeasePeriodOf<T>"), []⟩, ⟨none, 4, (some "T::BlockNumber"), []⟩], 0, []⟩, ⟨"AuctionClosed", [⟨none, 4, (some "AuctionIndex"), []⟩], 1, []⟩, ⟨"Reserved", [⟨none, 0, (some "T::AccountId"), []⟩, ⟨none, 6, (some "BalanceOf<T>"), []⟩, ⟨none, 6, (some "BalanceOf<T>"), []⟩], 2, []⟩, ⟨"Unreserved", [⟨none, 0, (some "T::AccountId"), []⟩, ⟨none, 6, (some "BalanceOf<T>"), []⟩], 3, []⟩, ⟨"ReserveConfiscated", [⟨none, 72, (some "ParaId"), []⟩, ⟨none, 0, (some "T::AccountId"), []⟩, ⟨none, 6, (some "BalanceOf<T>"), []⟩], 4, []⟩, ⟨"BidAccepted", [⟨none, 0, (some "T::AccountId"), []⟩, ⟨none, 72, (some "ParaId"), []⟩, ⟨none, 6, (some "BalanceOf<T>"), []⟩, ⟨none, 4, (some "LeasePeriodOf<T>"), []⟩, ⟨none, 4, (some "LeasePeriodOf<T>"), []⟩], 5, []⟩, ⟨"WinningOffset", [⟨none, 4, (some "AuctionIndex"), []⟩, ⟨none, 4, (some "T::BlockNumber"), []⟩], 6, []⟩], []⟩,
   ⟨["polkadot_runtime_common", "crowdloan", "pallet", "Event"], [("T", none)], .variant [⟨"Created", [⟨none, 72, (some "ParaId"), []⟩], 0, []⟩, ⟨"Contributed", [⟨none, 0, (some "T::AccountId"), []⟩, ⟨none, 72, (some "ParaId"), []⟩, ⟨none, 6, (some "BalanceOf<T>"), []⟩], 1, []⟩, ⟨"Withdrew", [⟨none, 0, (some "T::AccountId"), []⟩, ⟨none, 72, (some "ParaId"), []⟩, ⟨none, 6, (some "BalanceOf<T>"), []⟩], 2, []⟩, ⟨"PartiallyRefunded", [⟨none, 72, (some "ParaId"), []⟩], 3, []⟩, ⟨"AllRefunded", [⟨none, 72, (some "ParaId"), []⟩], 4, []⟩, ⟨"Dissolved", [⟨none, 72, (some "ParaId"), []⟩], 5, []⟩, ⟨"HandleBidResult", [⟨none, 72, (some "ParaId"), []⟩, ⟨none, 56, (some "DispatchResult"), []⟩], 6, []⟩, ⟨"Edited", [⟨none, 72, (some "ParaId"), []⟩], 7, []⟩, ⟨"MemoUpdated", [⟨none, 0, (some "T::AccountId"), []⟩, ⟨none, 72, (some "ParaId"), []⟩, ⟨none, 10, (some "Vec<u8>"), []⟩], 8, []⟩, ⟨"AddedToNewRaise", [⟨none, 72, (some "ParaId"), []⟩], 9, []⟩], []⟩,
   ⟨["pallet_xcm", "pallet", "Event"], [("T", none)], .variant [⟨"Attempted", [⟨none, 83, (some "xcm::latest::Outcome"), []⟩], 0, []⟩, ⟨"Sent", [⟨none, 92, (some "MultiLocation"), []⟩, ⟨none, 92, (some "MultiLocation"), []⟩, ⟨none, 101, (some "Xcm<()>"), []⟩], 1, []⟩, ⟨"UnexpectedResponse", [⟨none, 92, (some "MultiLocation"), []⟩, ⟨none, 8, (some "QueryId"), []⟩], 2, []⟩, ⟨"ResponseReady", [⟨none, 8, (some "QueryId"), []⟩, ⟨none, 111, (some "Response"), []⟩], 3, []⟩, ⟨"Notified", [⟨none, 8, (some "QueryId"), []⟩, ⟨none, 2, (some "u8"), []⟩, ⟨none, 2, (some "u8"), []⟩], 4, []⟩, ⟨"NotifyOverweight", [⟨none, 8, (some "QueryId"), []⟩, ⟨none, 2, (some "u8"), []⟩, ⟨none, 2, (some "u8"), []⟩, ⟨none, 8, (some "Weight"), []⟩, ⟨none, 8, (some "Weight"), []⟩], 5, []⟩, ⟨"NotifyDispatchError", [⟨none, 8, (some "QueryId"), []⟩, ⟨none, 2, (some "u8"), []⟩, ⟨none, 2, (some "u8"), []⟩], 6, []⟩, ⟨"NotifyDecodeFailed", [⟨none, 8, (some "QueryId"), []⟩, ⟨none, 2, (some "u8"), []⟩, ⟨none, 2, (some "u8"), []⟩], 7, []⟩, ⟨"InvalidResponder", [⟨none, 92, (some "MultiLocation"), []⟩, ⟨none, 8, (some "QueryId"), []⟩, ⟨none, 120, (some "Option<MultiLocation>"), []⟩], 8, []⟩, ⟨"InvalidResponderVersion", [⟨none, 92, (some "MultiLocation"), []⟩, ⟨none, 8, (some "QueryId"), []⟩], 9, []⟩, ⟨"ResponseTaken", [⟨none, 8, (some "QueryId"), []⟩], 10, []⟩, ⟨"AssetsTrapped", [⟨none, 9, (some "H256"), []⟩, ⟨none, 92, (some "MultiLocation"), []⟩, ⟨none, 121, (some "VersionedMultiAssets"), []⟩], 11, []⟩, ⟨"VersionChangeNotified", [⟨none, 92, (some "MultiLocation"), []⟩, ⟨none, 4, (some "XcmVersion"), []⟩], 12, []⟩, ⟨"SupportedVersionChanged", [⟨none, 92, (some "MultiLocation"), []⟩, ⟨none, 4, (some "XcmVersion"), []⟩], 13, []⟩, ⟨"NotifyTargetSendFail", [⟨none, 92, (some "MultiLocation"), []⟩, ⟨none, 8, (some "QueryId"), []⟩, ⟨none, 84, (some "XcmError"), []⟩], 14, []⟩, ⟨"NotifyTargetMigrationFail", [⟨none, 126, (some "VersionedMultiLocation"), []⟩, ⟨none, 8, (some "QueryId"), []⟩], 15, []⟩], []⟩,
   ⟨["xcm", "v1", "multilocation", "MultiLocation"], [], .composite [⟨(some "parents"), 2, (some "u8"), []⟩, ⟨(some "interior"), 93, (some "Junctions"), []⟩], []⟩,
   ⟨["xcm", "v1", "multilocation", "Junctions"], [], .variant [⟨"Here", [], 0, []⟩, ⟨"X1", [⟨none, 94, (some "Junction"), []⟩], 1, []⟩, ⟨"X2", [⟨none, 94, (some "Junction"), []⟩, ⟨none, 94, (some "Junction"), []⟩], 2, []⟩, ⟨"X3", [⟨none, 94, (some "Junction"), []⟩, ⟨none, 94, (some "Junction"), []⟩, ⟨none, 94, (some "Junction"), []⟩], 3, []⟩, ⟨"X4", [⟨none, 94, (some "Junction"), []⟩, ⟨none, 94, (some "Junction"), []⟩, ⟨none, 94, (some "Junction"), []⟩, ⟨none, 94, (some "Junction"), []⟩], 4, []⟩, ⟨"X5", [⟨none, 94, (some "Junction"), []⟩, ⟨none, 94, (some "Junction"), []⟩, ⟨none, 94, (some "Junction"), []⟩, ⟨none, 94, (some "Junction"), []⟩, ⟨none, 94, (some "Junction"), []⟩], 5, []⟩, ⟨"X6", [⟨none, 94, (some "Junction"), []⟩, ⟨none, 94, (some "Junction"), []⟩, ⟨none, 94, (some "Junction"), []⟩, ⟨none, 94, (some "Junction"), []⟩, ⟨none, 94, (some "Junction"), []⟩, ⟨none, 94, (some "Junction"), []⟩], 6, []⟩, ⟨"X7", [⟨none, 94, (some "Junction"), []⟩, ⟨none, 94, (some "Junction"), []⟩, ⟨none, 94, (some "Junction"), []⟩, ⟨none, 94, (some "Junction"), []⟩, ⟨none, 94, (some "Junction"), []⟩, ⟨none, 94, (some "Junction"), []⟩, ⟨none, 94, (some "Junction"), []⟩], 7, []⟩, ⟨"X8", [⟨none, 94, (some "Junction"), []⟩, ⟨none, 94, (some "Junction"), []⟩, ⟨none, 94, (some "Junction"), []⟩, ⟨none, 94, (some "Junction"), []⟩, ⟨none, 94, (some "Junction"), []⟩, ⟨none, 94, (some "Junction"), []⟩, ⟨none, 94, (some "Junction"), []⟩, ⟨none, 94, (some "Junction"), []⟩], 8, []⟩], []⟩,
   ⟨["xcm", "v1", "junction", "Junction"], [], .variant [⟨"Parachain", [⟨none, 95, (some "u32"), []⟩], 0, []⟩, ⟨"AccountId32", [⟨(some "network"), 96, (some "NetworkId"), []⟩, ⟨(some "id"), 1, (some "[u8; 32]"), []⟩], 1, []⟩, ⟨"AccountIndex64", [⟨(some "network"), 96, (some "NetworkId"), []⟩, ⟨(some "index"), 97, (some "u64"), []⟩], 2, []⟩, ⟨"AccountKey20", [⟨(some "network"), 96, (some "NetworkId"), []⟩, ⟨(some "key"), 98, (some "[u8; 20]"), []⟩], 3, []⟩, ⟨"PalletInstance", [⟨none, 2, (some "u8"), []⟩], 4, []⟩, ⟨"GeneralIndex", [⟨none, 46, (some "u128"), []⟩], 5, []⟩, ⟨"GeneralKey", [⟨none, 10, (some "Vec<u8>"), []⟩], 6, []⟩, ⟨"OnlyChild", [], 7, []⟩, ⟨"Plurality", [⟨(some "id"), 99, (some "BodyId"), []⟩, ⟨(some "part"), 100, (some "BodyPart"), []⟩], 8, []⟩], []⟩,
   ⟨[], [], .compact 4, []⟩]

/-- Types 96 to 127 of `for_tests/westend9111`. -/
def types3 : List Typ :=
  [⟨["xcm", "v0", "junction", "NetworkId"], [], .variant [⟨"Any", [], 0, []⟩, ⟨"Named", [⟨none, 10, (some "Vec<u8>"), []⟩], 1, []⟩, ⟨"Polkadot", [], 2, []⟩, ⟨"Kusama", [], 3, []⟩], []⟩,
   ⟨[], [], .compact 8, []⟩,
   ⟨[], [], .array 20 2, []⟩,
   ⟨["xcm", "v0", "junction", "BodyId"], [], .variant [⟨"Unit", [], 0, []⟩, ⟨"Named", [⟨none, 10, (some "Vec<u8>"), []⟩], 1, []⟩, ⟨"Index", [⟨none, 95, (some "u32"), []⟩], 2, []⟩, ⟨"Executive", [], 3, []⟩, ⟨"Technical", [], 4, []⟩, ⟨"Legislative", [], 5, []⟩, ⟨"Judicial", [], 6, []⟩], []⟩,
   ⟨["xcm", "v0", "junction", "BodyPart"], [], .variant [⟨"Voice", [], 0, []⟩, ⟨"Members", [⟨(some "count"), 95, (some "u32"), []⟩], 1, []⟩, ⟨"Fraction", [⟨(some "nom"), 95, (some "u32"), []⟩, ⟨(some "denom"), 95, (some "u32"), []⟩], 2, []⟩, ⟨"AtLeastProportion", [⟨(some "nom"), 95, (some "u32"), []⟩, ⟨(some "denom"), 95, (some "u32"), []⟩], 3, []⟩, ⟨"MoreThanProportion", [⟨(some "nom"), 95, (some "u32"), []⟩, ⟨(some "denom"), 95, (some "u32"), []⟩], 4, []⟩], []⟩,
   ⟨["xcm", "v2", "Xcm"], [("Call", none)], .composite [⟨none, 102, (some "Vec<Instruction<Call>>"), []⟩], []⟩,
   ⟨[], [], .sequence 103, []⟩,
   ⟨["xcm", "v2", "Instruction"], [("Call", none)], .variant [⟨"WithdrawAsset", [⟨none, 104, (some "MultiAssets"), []⟩], 0, []⟩, ⟨"ReserveAssetDeposited", [⟨none, 104, (some "MultiAssets"), []⟩], 1, []⟩, ⟨"ReceiveTeleportedAsset", [⟨none, 104, (some "MultiAssets"), []⟩], 2, []⟩, ⟨"QueryResponse", [⟨(some "query_id"), 97, (some "QueryId"), []⟩, ⟨(some "response"), 111, (some "Response"), []⟩, ⟨(some "max_weight"), 97, (some "u64"), []⟩], 3, []⟩, ⟨"TransferAsset", [⟨(some "assets"), 104, (some "MultiAssets"), []⟩, ⟨(some "beneficiary"), 92, (some "MultiLocation"), []⟩], 4, []⟩, ⟨"TransferReserveAsset", [⟨(some "assets"), 104, (some "MultiAssets"), []⟩, ⟨(some "dest"), 92, (some "MultiLocation"), []⟩, ⟨(some "xcm"), 101, (some "Xcm<()>"), []⟩], 5, []⟩, ⟨"Transact", [⟨(some "origin_type"), 114, (some "OriginKind"), []⟩, ⟨(some "require_weight_at_most"), 97, (some "u64"), []⟩, ⟨(some "call"), 115, (some "DoubleEncoded<Call>"), []⟩], 6, []⟩, ⟨"HrmpNewChannelOpenRequest", [⟨(some "sender"), 95, (some "u32"), []⟩, ⟨(some "max_message_size"), 95, (some "u32"), []⟩, ⟨(some "max_capacity"), 95, (some "u32"), []⟩], 7, []⟩, ⟨"HrmpChannelAccepted", [⟨(some "recipient"), 95, (some "u32"), []⟩], 8, []⟩, ⟨"HrmpChannelClosing", [⟨(some "initiator"), 95, (some "u32"), []⟩, ⟨(some "sender"), 95, (some "u32"), []⟩, ⟨(some "recipient"), 95, (some "u32"), []⟩], 9, []⟩, ⟨"ClearOrigin", [], 10, []⟩, ⟨"DescendOrigin", [⟨none, 93, (some "InteriorMultiLocation"), []⟩], 11, []⟩, ⟨"ReportError", [⟨(some "query_id"), 97, (some "QueryId"), []⟩, ⟨(some "dest"), 92, (some "MultiLocation"), []⟩, ⟨(some "max_response_weight"), 97, (some "u64"), []⟩], 12, []⟩, ⟨"DepositAsset", [⟨(some "assets"), 116, (some "MultiAssetFilter"), []⟩, ⟨(some "max_assets"), 95, (some "u32"), []⟩, ⟨(some "beneficiary"), 92, (some "MultiLocation"), []⟩], 13, []⟩, ⟨"DepositReserveAsset", [⟨(some "assets"), 116, (some "MultiAssetFilter"), []⟩, ⟨(some "max_assets"), 95, (some "u32"), []⟩, ⟨(some "dest"), 92, (some "MultiLocation"), []⟩, ⟨(some "xcm"), 101, (some "Xcm<()>"), []⟩], 14, []⟩, ⟨"ExchangeAsset", [⟨(some "give"), 116, (some "MultiAssetFilter"), []⟩, ⟨(some "receive"), 104, (some "MultiAssets"), []⟩], 15, []⟩, ⟨"InitiateReserveWithdraw", [⟨(some "assets"), 116, (some "MultiAssetFilter"), []⟩, ⟨(some "reserve"), 92, (some "MultiLocation"), []⟩, ⟨(some "xcm"), 101, (some "Xcm<()>"), []⟩], 16, []⟩, ⟨"InitiateTeleport", [⟨(some "assets"), 116, (some "MultiAssetFilter"), []⟩, ⟨(some "dest"), 92, (some "MultiLocation"), []⟩, ⟨(some "xcm"), 101, (some "Xcm<()>"), []⟩], 17, []⟩, ⟨"QueryHolding", [⟨(some "query_id"), 97, (some "QueryId"), []⟩, ⟨(some "dest"), 92, (some "MultiLocation"), []⟩, ⟨(some "assets"), 116, (some "MultiAssetFilter"), []⟩, ⟨(some "max_response_weight"), 97, (some "u64"), []⟩], 18, []⟩, ⟨"BuyExecution", [⟨(some "fees"), 106, (some "MultiAsset"), []⟩, ⟨(some "weight_limit"), 119, (some "WeightLimit"), []⟩], 19, []⟩, ⟨"RefundSurplus", [], 20, []⟩, ⟨"SetErrorHandler", [⟨none, 101, (some "Xcm<Call>"), []⟩], 21, []⟩, ⟨"SetAppendix", [⟨none, 101, (some "Xcm<Call>"), []⟩], 22, []⟩, ⟨"ClearError", [], 23, []⟩, ⟨"ClaimAsset", [⟨(some "assets"), 104, (some "MultiAssets"), []⟩, ⟨(some "ticket"), 92, (some "MultiLocation"), []⟩], 24, []⟩, ⟨"Trap", [⟨none, 97, (some "u64"), []⟩], 25, []⟩, ⟨"SubscribeVersion", [⟨(some "query_id"), 97, (some "QueryId"), []⟩, ⟨(some "max_response_weight"), 97, (some "u64"), []⟩], 26, []⟩, ⟨"UnsubscribeVersion", [], 27, []⟩], []⟩,
   ⟨["xcm", "v1", "multiasset", "MultiAssets"], [], .composite [⟨none, 105, (some "Vec<MultiAsset>"), []⟩], []⟩,
   ⟨[], [], .sequence 106, []⟩,
   ⟨["xcm", "v1", "multiasset", "MultiAsset"], [], .composite [⟨(some "id"), 107, (some "AssetId"), []⟩, ⟨(some "fun"), 108, (some "Fungibility"), []⟩], []⟩,
   ⟨["xcm", "v1", "multiasset", "AssetId"], [], .variant [⟨"Concrete", [⟨none, 92, (some "MultiLocation"), []⟩], 0, []⟩, ⟨"Abstract", [⟨none, 10, (some "Vec<u8>"), []⟩], 1, []⟩], []⟩,
   ⟨["xcm", "v1", "multiasset", "Fungibility"], [], .variant [⟨"Fungible", [⟨none, 46, (some "u128"), []⟩], 0, []⟩, ⟨"NonFungible", [⟨none, 109, (some "AssetInstance"), []⟩], 1, []⟩], []⟩,
   ⟨["xcm", "v1", "multiasset", "AssetInstance"], [], .variant [⟨"Undefined", [], 0, []⟩, ⟨"Index", [⟨none, 46, (some "u128"), []⟩], 1, []⟩, ⟨"Array4", [⟨none, 14, (some "[u8; 4]"), []⟩], 2, []⟩, ⟨"Array8", [⟨none, 110, (some "[u8; 8]"), []⟩], 3, []⟩, ⟨"Array16", [⟨none, 33, (some "[u8; 16]"), []⟩], 4, []⟩, ⟨"Array32", [⟨none, 1, (some "[u8; 32]"), []⟩], 5, []⟩, ⟨"Blob", [⟨none, 10, (some "Vec<u8>"), []⟩], 6, []⟩], []⟩,
   ⟨[], [], .array 8 2, []⟩,
   ⟨["xcm", "v2", "Response"], [], .variant [⟨"Null", [], 0, []⟩, ⟨"Assets", [⟨none, 104, (some "MultiAssets"), []⟩], 1, []⟩, ⟨"ExecutionResult", [⟨none, 112, (some "Option<(u32, Error)>"), []⟩], 2, []⟩, ⟨"Version", [⟨none, 4, (some "super::Version"), []⟩], 3, []⟩], []⟩,
   ⟨["Option"], [("T", (some 113))], .variant [⟨"None", [], 0, []⟩, ⟨"Some", [⟨none, 113, none, []⟩], 1, []⟩], []⟩,
   ⟨[], [], .tuple [4, 84], []⟩,
   ⟨["xcm", "v0", "OriginKind"], [], .variant [⟨"Native", [], 0, []⟩, ⟨"SovereignAccount", [], 1, []⟩, ⟨"Superuser", [], 2, []⟩, ⟨"Xcm", [], 3, []⟩], []⟩,
   ⟨["xcm", "double_encoded", "DoubleEncoded"], [("T", none)], .composite [⟨(some "encoded"), 10, (some "Vec<u8>"), []⟩], []⟩,
   ⟨["xcm", "v1", "multiasset", "MultiAssetFilter"], [], .variant [⟨"Definite", [⟨none, 104, (some "MultiAssets"), []⟩], 0, []⟩, ⟨"Wild", [⟨none, 117, (some "WildMultiAsset"), []⟩], 1, []⟩], []⟩,
   ⟨["xcm", "v1", "multiasset", "WildMultiAsset"], [], .variant [⟨"All", [], 0, []⟩, ⟨"AllOf", [⟨(some "id"), 107, (some "AssetId"), []⟩, ⟨(some "fun"), 118, (some "WildFungibility"), []⟩], 1, []⟩], []⟩,
   ⟨["xcm", "v1", "multiasset", "WildFungibility"], [], .variant [⟨"Fungible", [], 0, []⟩, ⟨"NonFungible", [], 1, []⟩], []⟩,
   ⟨["xcm", "v2", "WeightLimit"], [], .variant [⟨"Unlimited", [], 0, []⟩, ⟨"Limited", [⟨none, 97, (some "u64"), []⟩], 1, []⟩], []⟩,
   ⟨["Option"], [("T", (some 92))], .variant [⟨"None", [], 0, []⟩, ⟨"Some", [⟨none, 92, none, []⟩], 1, []⟩], []⟩,
   ⟨["xcm", "VersionedMultiAssets"], [], .variant [⟨"V0", [⟨none, 122, (some "Vec<v0::MultiAsset>"), []⟩], 0, []⟩, ⟨"V1", [⟨none, 104, (some "v1::MultiAssets"), []⟩], 1, []⟩], []⟩,
   ⟨[], [], .sequence 123, []⟩,
   ⟨["xcm", "v0", "multi_asset", "MultiAsset"], [], .variant [⟨"None", [], 0, []⟩, ⟨"All", [], 1, []⟩, ⟨"AllFungible", [], 2, []⟩, ⟨"AllNonFungible", [], 3, []⟩, ⟨"AllAbstractFungible", [⟨(some "id"), 10, (some "Vec<u8>"), []⟩], 4, []⟩, ⟨"AllAbstractNonFungible", [⟨(some "class"), 10, (some "Vec<u8>"), []⟩], 5, []⟩, ⟨"AllConcreteFungible", [⟨(some "id"), 124, (some "MultiLocation"), []⟩], 6, []⟩, ⟨"AllConcreteNonFungible", [⟨(some "class"), 124, (some "MultiLocation"), []⟩], 7, []⟩, ⟨"AbstractFungible", [⟨(some "id"), 10, (some "Vec<u8>"), []⟩, ⟨(some "amount"), 46, (some "u128"), []⟩], 8, []⟩, ⟨"AbstractNonFungible", [⟨(some "class"), 10, (some "Vec<u8>"), []⟩, ⟨(some "instance"), 109, (some "AssetInstance"), []⟩], 9, []⟩, ⟨"ConcreteFungible", [⟨(some "id"), 124, (some "MultiLocation"), []⟩, ⟨(some "amount"), 46, (some "u128"), []⟩], 10, []⟩, ⟨"ConcreteNonFungible", [⟨(some "class"), 124, (some "MultiLocation"), []⟩, ⟨(some "instance"), 109, (some "AssetInstance"), []⟩], 11, []⟩], []⟩,
   ⟨["xcm", "v0", "multi_location", "MultiLocation"], [], .variant [⟨"Null", [], 0, []⟩, ⟨"X1", [⟨none, 125, (some "Junction"), []⟩], 1, []⟩, ⟨"X2", [⟨none, 125, (some "Junction"), []⟩, ⟨none, 125, (some "Junction"), []⟩], 2, []⟩, ⟨"X3", [⟨none, 125, (some "Junction"), []⟩, ⟨none, 125, (some "Junction"), []⟩, ⟨none, 125, (some "Junction"), []⟩], 3, []⟩, ⟨"X4", [⟨none, 125, (some "Junction"), []⟩, ⟨none, 125, (some "Junction"), []⟩, ⟨none, 125, (some "Junction"), []⟩, ⟨none, 125, (some "Junction"), []⟩], 4, []⟩, ⟨"X5", [⟨none, 125, (some "Junction"), []⟩, ⟨none, 125, (some "Junction"), []⟩, ⟨none, 125, (some "Junction"), []⟩, ⟨none, 125, (some "Junction"), []⟩, ⟨none, 125, (some "Junction"), []⟩], 5, []⟩, ⟨"X6", [⟨none, 125, (some "Junction"), []⟩, ⟨none, 125, (some "Junction"), []⟩, ⟨none, 125, (some "Junction"), []⟩, ⟨none, 125, (some "Junction"), []⟩, ⟨none, 125, (some "Junction"), []⟩, ⟨none, 125, (some "Junction"), []⟩], 6, []⟩, ⟨"X7", [⟨none, 125, (some "Junction"), []⟩, ⟨none, 125, (some "Junction"), []⟩, ⟨none, 125, (some "Junction"), []⟩, ⟨none, 125, (some "Junction"), []⟩, ⟨none, 125, (some "Junction"), []⟩, ⟨none, 125, (some "Junction"), []⟩, ⟨none, 125, (some "Junction"), []⟩], 7, []⟩, ⟨"X8", [⟨none, 125, (some "Junction"), []⟩, ⟨none, 125, (some "Junction"), []⟩, ⟨none, 125, (some "Junction"), []⟩, ⟨none, 125, (some "Junction"), []⟩, ⟨none, 125, (some "Junction"), []⟩, ⟨none, 125, (some "Junction"), []⟩, ⟨none, 125, (some "Junction"), []⟩, ⟨none, 125, (some "Junction"), []⟩], 8, []⟩], []⟩,
   ⟨["xcm", "v0", "junction", "Junction"], [], .variant [⟨"Parent", [], 0, []⟩, ⟨"Parachain", [⟨none, 95, (some "u32"), []⟩], 1, []⟩, ⟨"AccountId32", [⟨(some "network"), 96, (some "NetworkId"), []⟩, ⟨(some "id"), 1, (some "[u8; 32]"), []⟩], 2, []⟩, ⟨"AccountIndex64", [⟨(some "network"), 96, (some "NetworkId"), []⟩, ⟨(some "index"), 97, (some "u64"), []⟩], 3, []⟩, ⟨"AccountKey20", [⟨(some "network"), 96, (some "NetworkId"), []⟩, ⟨(some "key"), 98, (some "[u8; 20]"), []⟩], 4, []⟩, ⟨"PalletInstance", [⟨none, 2, (some "u8"), []⟩], 5, []⟩, ⟨"GeneralIndex", [⟨none, 46, (some "u128"), []⟩], 6, []⟩, ⟨"GeneralKey", [⟨none, 10, (some "Vec<u8>"), []⟩], 7, []⟩, ⟨"OnlyChild", [], 8, []⟩, ⟨"Plurality", [⟨(some "id"), 99, (some "BodyId"), []⟩, ⟨(some "part"), 100, (some "BodyPart"), []⟩], 9, []⟩], []⟩,
   ⟨["xcm", "VersionedMultiLocation"], [], .variant [⟨"V0", [⟨none, 124, (some "v0::MultiLocation"), []⟩], 0, []⟩, ⟨"V1", [⟨none, 92, (some "v1::MultiLocation"), []⟩], 1, []⟩], []⟩,
   ⟨["frame_system", "Phase"], [], .variant [⟨"ApplyExtrinsic", [⟨none, 4, (some "u32"), []⟩], 0, []⟩, ⟨"Finalization", [], 1, []⟩, ⟨"Initialization", [], 2, []⟩], []⟩]

/-- Types 128 to 159 of `for_tests/westend9111`. -/
def types4 : List Typ :=
  [⟨[], [], .sequence 9, []⟩,
   ⟨[], [], .sequence 54, []⟩,
   ⟨["frame_system", "LastRuntimeUpgradeInfo"], [], .composite [⟨(some "spec_version"), 95, (some "codec::Compact<u32>"), []⟩, ⟨(some "spec_name"), 131, (some "sp_runtime::RuntimeString"), []⟩], []⟩,
   ⟨[], [], .primitive .str, []⟩,
   ⟨["frame_system", "pallet", "Call"], [("T", none)], .variant [⟨"fill_block", [⟨(some "ratio"), 133, (some "Perbill"), []⟩], 0, []⟩, ⟨"remark", [⟨(some "remark"), 10, (some "Vec<u8>"), []⟩], 1, []⟩, ⟨"set_heap_pages", [⟨(some "pages"), 8, (some "u64"), []⟩], 2, []⟩, ⟨"set_code", [⟨(some "code"), 10, (some "Vec<u8>"), []⟩], 3, []⟩, ⟨"set_code_without_checks", [⟨(some "code"), 10, (some "Vec<u8>"), []⟩], 4, []⟩, ⟨"set_changes_trie_config", [⟨(some "changes_trie_config"), 16, (some "Option<ChangesTrieConfiguration>"), []⟩], 5, []⟩, ⟨"set_storage", [⟨(some "items"), 134, (some "Vec<KeyValue>"), []⟩], 6, []⟩, ⟨"kill_storage", [⟨(some "keys"), 136, (some "Vec<Key>"), []⟩], 7, []⟩, ⟨"kill_prefix", [⟨(some "prefix"), 10, (some "Key"), []⟩, ⟨(some "subkeys"), 4, (some "u32"), []⟩], 8, []⟩, ⟨"remark_with_event", [⟨(some "remark"), 10, (some "Vec<u8>"), []⟩], 9, []⟩], []⟩,
   ⟨["sp_arithmetic", "per_things", "Perbill"], [], .composite [⟨none, 4, (some "u32"), []⟩], []⟩,
   ⟨[], [], .sequence 135, []⟩,
   ⟨[], [], .tuple [10, 10], []⟩,
   ⟨[], [], .sequence 10, []⟩,
   ⟨["frame_system", "limits", "BlockWeights"], [], .composite [⟨(some "base_block"), 8, (some "Weight"), []⟩, ⟨(some "max_block"), 8, (some "Weight"), []⟩, ⟨(some "per_class"), 138, (some "PerDispatchClass<WeightsPerClass>"), []⟩], []⟩,
   ⟨["frame_support", "weights", "PerDispatchClass"], [("T", (some 139))], .composite [⟨(some "normal"), 139, (some "T"), []⟩, ⟨(some "operational"), 139, (some "T"), []⟩, ⟨(some "mandatory"), 139, (some "T"), []⟩], []⟩,
   ⟨["frame_system", "limits", "WeightsPerClass"], [], .composite [⟨(some "base_extrinsic"), 8, (some "Weight"), []⟩, ⟨(some "max_extrinsic"), 140, (some "Option<Weight>"), []⟩, ⟨(some "max_total"), 140, (some "Option<Weight>"), []⟩, ⟨(some "reserved"), 140, (some "Option<Weight>"), []⟩], []⟩,
   ⟨["Option"], [("T", (some 8))], .variant [⟨"None", [], 0, []⟩, ⟨"Some", [⟨none, 8, none, []⟩], 1, []⟩], []⟩,
   ⟨["frame_system", "limits", "BlockLength"], [], .composite [⟨(some "max"), 142, (some "PerDispatchClass<u32>"), []⟩], []⟩,
   ⟨["frame_support", "weights", "PerDispatchClass"], [("T", (some 4))], .composite [⟨(some "normal"), 4, (some "T"), []⟩, ⟨(some "operational"), 4, (some "T"), []⟩, ⟨(some "mandatory"), 4, (some "T"), []⟩], []⟩,
   ⟨["frame_support", "weights", "RuntimeDbWeight"], [], .composite [⟨(some "read"), 8, (some "Weight"), []⟩, ⟨(some "write"), 8, (some "Weight"), []⟩], []⟩,
   ⟨["sp_version", "RuntimeVersion"], [], .composite [⟨(some "spec_name"), 131, (some "RuntimeString"), []⟩, ⟨(some "impl_name"), 131, (some "RuntimeString"), []⟩, ⟨(some "authoring_version"), 4, (some "u32"), []⟩, ⟨(some "spec_version"), 4, (some "u32"), []⟩, ⟨(some "impl_version"), 4, (some "u32"), []⟩, ⟨(some "apis"), 145, (some "ApisVec"), []⟩, ⟨(some "transaction_version"), 4, (some "u32"), []⟩], []⟩,
   ⟨["Cow"], [("T", (some 146))], .composite [⟨none, 146, none, []⟩], []⟩,
   ⟨[], [], .sequence 147, []⟩,
   ⟨[], [], .tuple [110, 4], []⟩,
   ⟨["frame_system", "pallet", "Error"], [("T", none)], .variant [⟨"InvalidSpecName", [], 0, []⟩, ⟨"SpecVersionNeedsToIncrease", [], 1, []⟩, ⟨"FailedToExtractRuntimeVersion", [], 2, []⟩, ⟨"NonDefaultComposite", [], 3, []⟩, ⟨"NonZeroRefCount", [], 4, []⟩], []⟩,
   ⟨["frame_support", "storage", "weak_bounded_vec", "WeakBoundedVec"], [("T", (some 150)), ("S", none)], .composite [⟨none, 152, (some "Vec<T>"), []⟩], []⟩,
   ⟨[], [], .tuple [151, 8], []⟩,
   ⟨["sp_consensus_babe", "app", "Public"], [], .composite [⟨none, 42, (some "sr25519::Public"), []⟩], []⟩,
   ⟨[], [], .sequence 150, []⟩,
   ⟨["sp_consensus_slots", "Slot"], [], .composite [⟨none, 8, (some "u64"), []⟩], []⟩,
   ⟨["sp_consensus_babe", "digests", "NextConfigDescriptor"], [], .variant [⟨"V1", [⟨(some "c"), 155, (some "(u64, u64)"), []⟩, ⟨(some "allowed_slots"), 156, (some "AllowedSlots"), []⟩], 1, []⟩], []⟩,
   ⟨[], [], .tuple [8, 8], []⟩,
   ⟨["sp_consensus_babe", "AllowedSlots"], [], .variant [⟨"PrimarySlots", [], 0, []⟩, ⟨"PrimaryAndSecondaryPlainSlots", [], 1, []⟩, ⟨"PrimaryAndSecondaryVRFSlots", [], 2, []⟩], []⟩,
   ⟨["frame_support", "storage", "bounded_vec", "BoundedVec"], [("T", (some 1)), ("S", none)], .composite [⟨none, 158, (some "Vec<T>"), []⟩], []⟩,
   ⟨[], [], .sequence 1, []⟩,
   ⟨["Option"], [("T", (some 1))], .variant [⟨"None", [], 0, []⟩, ⟨"Some", [⟨none, 1, none, []⟩], 1, []⟩], []⟩]

/-- Types 160 to 191 of `for_tests/westend9111`. -/
def types5 : List Typ :=
  [⟨["sp_consensus_babe", "BabeEpochConfiguration"], [], .composite [⟨(some "c"), 155, (some "(u64, u64)"), []⟩, ⟨(some "allowed_slots"), 156, (some "AllowedSlots"), []⟩], []⟩,
   ⟨["pallet_babe", "pallet", "Call"], [("T", none)], .variant [⟨"report_equivocation", [⟨(some "equivocation_proof"), 162, (some "Box<EquivocationProof<T::Header>>"), []⟩, ⟨(some "key_owner_proof"), 165, (some "T::KeyOwnerProof"), []⟩], 0, []⟩, ⟨"report_equivocation_unsigned", [⟨(some "equivocation_proof"), 162, (some "Box<EquivocationProof<T::Header>>"), []⟩, ⟨(some "key_owner_proof"), 165, (some "T::KeyOwnerProof"), []⟩], 1, []⟩, ⟨"plan_config_change", [⟨(some "config"), 154, (some "NextConfigDescriptor"), []⟩], 2, []⟩], []⟩,
   ⟨["sp_consensus_slots", "EquivocationProof"], [("Header", (some 163)), ("Id", (some 151))], .composite [⟨(some "offender"), 151, (some "Id"), []⟩, ⟨(some "slot"), 153, (some "Slot"), []⟩, ⟨(some "first_header"), 163, (some "Header"), []⟩, ⟨(some "second_header"), 163, (some "Header"), []⟩], []⟩,
   ⟨["sp_runtime", "generic", "header", "Header"], [("Number", (some 4)), ("Hash", (some 164))], .composite [⟨(some "parent_hash"), 9, (some "Hash::Output"), []⟩, ⟨(some "number"), 95, (some "Number"), []⟩, ⟨(some "state_root"), 9, (some "Hash::Output"), []⟩, ⟨(some "extrinsics_root"), 9, (some "Hash::Output"), []⟩, ⟨(some "digest"), 11, (some "Digest<Hash::Output>"), []⟩], []⟩,
   ⟨["sp_runtime", "traits", "BlakeTwo256"], [], .composite [], []⟩,
   ⟨["sp_session", "MembershipProof"], [], .composite [⟨(some "session"), 4, (some "SessionIndex"), []⟩, ⟨(some "trie_nodes"), 136, (some "Vec<Vec<u8>>"), []⟩, ⟨(some "validator_count"), 4, (some "ValidatorCount"), []⟩], []⟩,
   ⟨["pallet_babe", "pallet", "Error"], [("T", none)], .variant [⟨"InvalidEquivocationProof", [], 0, []⟩, ⟨"InvalidKeyOwnershipProof", [], 1, []⟩, ⟨"DuplicateOffenceReport", [], 2, []⟩], []⟩,
   ⟨["pallet_timestamp", "pallet", "Call"], [("T", none)], .variant [⟨"set", [⟨(some "now"), 97, (some "T::Moment"), []⟩], 0, []⟩], []⟩,
   ⟨[], [], .tuple [0, 6, 66], []⟩,
   ⟨["pallet_indices", "pallet", "Call"], [("T", none)], .variant [⟨"claim", [⟨(some "index"), 4, (some "T::AccountIndex"), []⟩], 0, []⟩, ⟨"transfer", [⟨(some "new"), 0, (some "T::AccountId"), []⟩, ⟨(some "index"), 4, (some "T::AccountIndex"), []⟩], 1, []⟩, ⟨"free", [⟨(some "index"), 4, (some "T::AccountIndex"), []⟩], 2, []⟩, ⟨"force_transfer", [⟨(some "new"), 0, (some "T::AccountId"), []⟩, ⟨(some "index"), 4, (some "T::AccountIndex"), []⟩, ⟨(some "freeze"), 66, (some "bool"), []⟩], 3, []⟩, ⟨"freeze", [⟨(some "index"), 4, (some "T::AccountIndex"), []⟩], 4, []⟩], []⟩,
   ⟨["pallet_indices", "pallet", "Error"], [("T", none)], .variant [⟨"NotAssigned", [], 0, []⟩, ⟨"NotOwner", [], 1, []⟩, ⟨"InUse", [], 2, []⟩, ⟨"NotTransfer", [], 3, []⟩, ⟨"Permanent", [], 4, []⟩], []⟩,
   ⟨["frame_support", "storage", "weak_bounded_vec", "WeakBoundedVec"], [("T", (some 172)), ("S", none)], .composite [⟨none, 174, (some "Vec<T>"), []⟩], []⟩,
   ⟨["pallet_balances", "BalanceLock"], [("Balance", (some 6))], .composite [⟨(some "id"), 110, (some "LockIdentifier"), []⟩, ⟨(some "amount"), 6, (some "Balance"), []⟩, ⟨(some "reasons"), 173, (some "Reasons"), []⟩], []⟩,
   ⟨["pallet_balances", "Reasons"], [], .variant [⟨"Fee", [], 0, []⟩, ⟨"Misc", [], 1, []⟩, ⟨"All", [], 2, []⟩], []⟩,
   ⟨[], [], .sequence 172, []⟩,
   ⟨["frame_support", "storage", "bounded_vec", "BoundedVec"], [("T", (some 176)), ("S", none)], .composite [⟨none, 177, (some "Vec<T>"), []⟩], []⟩,
   ⟨["pallet_balances", "ReserveData"], [("ReserveIdentifier", (some 110)), ("Balance", (some 6))], .composite [⟨(some "id"), 110, (some "ReserveIdentifier"), []⟩, ⟨(some "amount"), 6, (some "Balance"), []⟩], []⟩,
   ⟨[], [], .sequence 176, []⟩,
   ⟨["pallet_balances", "Releases"], [], .variant [⟨"V1_0_0", [], 0, []⟩, ⟨"V2_0_0", [], 1, []⟩], []⟩,
   ⟨["pallet_balances", "pallet", "Call"], [("T", none), ("I", none)], .variant [⟨"transfer", [⟨(some "dest"), 180, (some "<T::Lookup as StaticLookup>::Source"), []⟩, ⟨(some "value"), 46, (some "T::Balance"), []⟩], 0, []⟩, ⟨"set_balance", [⟨(some "who"), 180, (some "<T::Lookup as StaticLookup>::Source"), []⟩, ⟨(some "new_free"), 46, (some "T::Balance"), []⟩, ⟨(some "new_reserved"), 46, (some "T::Balance"), []⟩], 1, []⟩, ⟨"force_transfer", [⟨(some "source"), 180, (some "<T::Lookup as StaticLookup>::Source"), []⟩, ⟨(some "dest"), 180, (some "<T::Lookup as StaticLookup>::Source"), []⟩, ⟨(some "value"), 46, (some "T::Balance"), []⟩], 2, []⟩, ⟨"transfer_keep_alive", [⟨(some "dest"), 180, (some "<T::Lookup as StaticLookup>::Source"), []⟩, ⟨(some "value"), 46, (some "T::Balance"), []⟩], 3, []⟩, ⟨"transfer_all", [⟨(some "dest"), 180, (some "<T::Lookup as StaticLookup>::Source"), []⟩, ⟨(some "keep_alive"), 66, (some "bool"), []⟩], 4, []⟩, ⟨"force_unreserve", [⟨(some "who"), 180, (some "<T::Lookup as StaticLookup>::Source"), []⟩, ⟨(some "amount"), 6, (some "T::Balance"), []⟩], 5, []⟩], []⟩,
   ⟨["sp_runtime", "multiaddress", "MultiAddress"], [("AccountId", (some 0)), ("AccountIndex", (some 57))], .variant [⟨"Id", [⟨none, 0, (some "AccountId"), []⟩], 0, []⟩, ⟨"Index", [⟨none, 181, (some "AccountIndex"), []⟩], 1, []⟩, ⟨"Raw", [⟨none, 10, (some "Vec<u8>"), []⟩], 2, []⟩, ⟨"Address32", [⟨none, 1, (some "[u8; 32]"), []⟩], 3, []⟩, ⟨"Address20", [⟨none, 98, (some "[u8; 20]"), []⟩], 4, []⟩], []⟩,
   ⟨[], [], .compact 57, []⟩,
   ⟨["pallet_balances", "pallet", "Error"], [("T", none), ("I", none)], .variant [⟨"VestingBalance", [], 0, []⟩, ⟨"LiquidityRestrictions", [], 1, []⟩, ⟨"InsufficientBalance", [], 2, []⟩, ⟨"ExistentialDeposit", [], 3, []⟩, ⟨"KeepAlive", [], 4, []⟩, ⟨"ExistingVestingSchedule", [], 5, []⟩, ⟨"DeadAccount", [], 6, []⟩, ⟨"TooManyReserves", [], 7, []⟩], []⟩,
   ⟨["sp_arithmetic", "fixed_point", "FixedU128"], [], .composite [⟨none, 6, (some "u128"), []⟩], []⟩,
   ⟨["pallet_transaction_payment", "Releases"], [], .variant [⟨"V1Ancient", [], 0, []⟩, ⟨"V2", [], 1, []⟩], []⟩,
   ⟨[], [], .sequence 186, []⟩,
   ⟨["frame_support", "weights", "WeightToFeeCoefficient"], [("Balance", (some 6))], .composite [⟨(some "coeff_integer"), 6, (some "Balance"), []⟩, ⟨(some "coeff_frac"), 133, (some "Perbill"), []⟩, ⟨(some "negative"), 66, (some "bool"), []⟩, ⟨(some "degree"), 2, (some "u8"), []⟩], []⟩,
   ⟨[], [], .sequence 188, []⟩,
   ⟨["pallet_authorship", "UncleEntryItem"], [("BlockNumber", (some 4)), ("Hash", (some 9)), ("Author", (some 0))], .variant [⟨"InclusionHeight", [⟨none, 4, (some "BlockNumber"), []⟩], 0, []⟩, ⟨"Uncle", [⟨none, 9, (some "Hash"), []⟩, ⟨none, 189, (some "Option<Author>"), []⟩], 1, []⟩], []⟩,
   ⟨["Option"], [("T", (some 0))], .variant [⟨"None", [], 0, []⟩, ⟨"Some", [⟨none, 0, none, []⟩], 1, []⟩], []⟩,
   ⟨["pallet_authorship", "pallet", "Call"], [("T", none)], .variant [⟨"set_uncles", [⟨(some "new_uncles"), 191, (some "Vec<T::Header>"), []⟩], 0, []⟩], []⟩,
   ⟨[], [], .sequence 163, []⟩]

/-- Types 192 to 223 of `for_tests/westend9111`. -/
def types6 : List Typ :=
  [⟨["pallet_authorship", "pallet", "Error"], [("T", none)], .variant [⟨"InvalidUncleParent", [], 0, []⟩, ⟨"UnclesAlreadySet", [], 1, []⟩, ⟨"TooManyUncles", [], 2, []⟩, ⟨"GenesisUncle", [], 3, []⟩, ⟨"TooHighUncle", [], 4, []⟩, ⟨"UncleAlreadyIncluded", [], 5, []⟩, ⟨"OldUncle", [], 6, []⟩], []⟩,
   ⟨[], [], .sequence 0, []⟩,
   ⟨["pallet_staking", "StakingLedger"], [("AccountId", (some 0)), ("Balance", (some 6))], .composite [⟨(some "stash"), 0, (some "AccountId"), []⟩, ⟨(some "total"), 46, (some "Balance"), []⟩, ⟨(some "active"), 46, (some "Balance"), []⟩, ⟨(some "unlocking"), 195, (some "Vec<UnlockChunk<Balance>>"), []⟩, ⟨(some "claimed_rewards"), 197, (some "Vec<EraIndex>"), []⟩], []⟩,
   ⟨[], [], .sequence 196, []⟩,
   ⟨["pallet_staking", "UnlockChunk"], [("Balance", (some 6))], .composite [⟨(some "value"), 46, (some "Balance"), []⟩, ⟨(some "era"), 95, (some "EraIndex"), []⟩], []⟩,
   ⟨[], [], .sequence 4, []⟩,
   ⟨["pallet_staking", "RewardDestination"], [("AccountId", (some 0))], .variant [⟨"Staked", [], 0, []⟩, ⟨"Stash", [], 1, []⟩, ⟨"Controller", [], 2, []⟩, ⟨"Account", [⟨none, 0, (some "AccountId"), []⟩], 3, []⟩, ⟨"None", [], 4, []⟩], []⟩,
   ⟨["pallet_staking", "ValidatorPrefs"], [], .composite [⟨(some "commission"), 200, (some "Perbill"), []⟩, ⟨(some "blocked"), 66, (some "bool"), []⟩], []⟩,
   ⟨[], [], .compact 133, []⟩,
   ⟨["pallet_staking", "Nominations"], [("AccountId", (some 0))], .composite [⟨(some "targets"), 193, (some "Vec<AccountId>"), []⟩, ⟨(some "submitted_in"), 4, (some "EraIndex"), []⟩, ⟨(some "suppressed"), 66, (some "bool"), []⟩], []⟩,
   ⟨["pallet_staking", "ActiveEraInfo"], [], .composite [⟨(some "index"), 4, (some "EraIndex"), []⟩, ⟨(some "start"), 140, (some "Option<u64>"), []⟩], []⟩,
   ⟨[], [], .tuple [4, 0], []⟩,
   ⟨["pallet_staking", "EraRewardPoints"], [("AccountId", (some 0))], .composite [⟨(some "total"), 4, (some "RewardPoint"), []⟩, ⟨(some "individual"), 205, (some "BTreeMap<AccountId, RewardPoint>"), []⟩], []⟩,
   ⟨["BTreeMap"], [("K", (some 0)), ("V", (some 4))], .composite [⟨none, 206, none, []⟩], []⟩,
   ⟨[], [], .sequence 207, []⟩,
   ⟨[], [], .tuple [0, 4], []⟩,
   ⟨["pallet_staking", "Forcing"], [], .variant [⟨"NotForcing", [], 0, []⟩, ⟨"ForceNew", [], 1, []⟩, ⟨"ForceNone", [], 2, []⟩, ⟨"ForceAlways", [], 3, []⟩], []⟩,
   ⟨[], [], .sequence 210, []⟩,
   ⟨["pallet_staking", "UnappliedSlash"], [("AccountId", (some 0)), ("Balance", (some 6))], .composite [⟨(some "validator"), 0, (some "AccountId"), []⟩, ⟨(some "own"), 6, (some "Balance"), []⟩, ⟨(some "others"), 211, (some "Vec<(AccountId, Balance)>"), []⟩, ⟨(some "reporters"), 193, (some "Vec<AccountId>"), []⟩, ⟨(some "payout"), 6, (some "Balance"), []⟩], []⟩,
   ⟨[], [], .sequence 212, []⟩,
   ⟨[], [], .tuple [0, 6], []⟩,
   ⟨[], [], .tuple [133, 6], []⟩,
   ⟨["pallet_staking", "slashing", "SlashingSpans"], [], .composite [⟨(some "span_index"), 4, (some "SpanIndex"), []⟩, ⟨(some "last_start"), 4, (some "EraIndex"), []⟩, ⟨(some "last_nonzero_slash"), 4, (some "EraIndex"), []⟩, ⟨(some "prior"), 197, (some "Vec<EraIndex>"), []⟩], []⟩,
   ⟨["pallet_staking", "slashing", "SpanRecord"], [("Balance", (some 6))], .composite [⟨(some "slashed"), 6, (some "Balance"), []⟩, ⟨(some "paid_out"), 6, (some "Balance"), []⟩], []⟩,
   ⟨["pallet_staking", "Releases"], [], .variant [⟨"V1_0_0Ancient", [], 0, []⟩, ⟨"V2_0_0", [], 1, []⟩, ⟨"V3_0_0", [], 2, []⟩, ⟨"V4_0_0", [], 3, []⟩, ⟨"V5_0_0", [], 4, []⟩, ⟨"V6_0_0", [], 5, []⟩, ⟨"V7_0_0", [], 6, []⟩, ⟨"V8_0_0", [], 7, []⟩], []⟩,
   ⟨["sp_arithmetic", "per_things", "Percent"], [], .composite [⟨none, 2, (some "u8"), []⟩], []⟩,
   ⟨["pallet_staking", "pallet", "pallet", "Call"], [("T", none)], .variant [⟨"bond", [⟨(some "controller"), 180, (some "<T::Lookup as StaticLookup>::Source"), []⟩, ⟨(some "value"), 46, (some "BalanceOf<T>"), []⟩, ⟨(some "payee"), 198, (some "RewardDestination<T::AccountId>"), []⟩], 0, []⟩, ⟨"bond_extra", [⟨(some "max_additional"), 46, (some "BalanceOf<T>"), []⟩], 1, []⟩, ⟨"unbond", [⟨(some "value"), 46, (some "BalanceOf<T>"), []⟩], 2, []⟩, ⟨"withdraw_unbonded", [⟨(some "num_slashing_spans"), 4, (some "u32"), []⟩], 3, []⟩, ⟨"validate", [⟨(some "prefs"), 199, (some "ValidatorPrefs"), []⟩], 4, []⟩, ⟨"nominate", [⟨(some "targets"), 219, (some "Vec<<T::Lookup as StaticLookup>::Source>"), []⟩], 5, []⟩, ⟨"chill", [], 6, []⟩, ⟨"set_payee", [⟨(some "payee"), 198, (some "RewardDestination<T::AccountId>"), []⟩], 7, []⟩, ⟨"set_controller", [⟨(some "controller"), 180, (some "<T::Lookup as StaticLookup>::Source"), []⟩], 8, []⟩, ⟨"set_validator_count", [⟨(some "new"), 95, (some "u32"), []⟩], 9, []⟩, ⟨"increase_validator_count", [⟨(some "additional"), 95, (some "u32"), []⟩], 10, []⟩, ⟨"scale_validator_count", [⟨(some "factor"), 217, (some "Percent"), []⟩], 11, []⟩, ⟨"force_no_eras", [], 12, []⟩, ⟨"force_new_era", [], 13, []⟩, ⟨"set_invulnerables", [⟨(some "invulnerables"), 193, (some "Vec<T::AccountId>"), []⟩], 14, []⟩, ⟨"force_unstake", [⟨(some "stash"), 0, (some "T::AccountId"), []⟩, ⟨(some "num_slashing_spans"), 4, (some "u32"), []⟩], 15, []⟩, ⟨"force_new_era_always", [], 16, []⟩, ⟨"cancel_deferred_slash", [⟨(some "era"), 4, (some "EraIndex"), []⟩, ⟨(some "slash_indices"), 197, (some "Vec<u32>"), []⟩], 17, []⟩, ⟨"payout_stakers", [⟨(some "validator_stash"), 0, (some "T::AccountId"), []⟩, ⟨(some "era"), 4, (some "EraIndex"), []⟩], 18, []⟩, ⟨"rebond", [⟨(some "value"), 46, (some "BalanceOf<T>"), []⟩], 19, []⟩, ⟨"set_history_depth", [⟨(some "new_history_depth"), 95, (some "EraIndex"), []⟩, ⟨(some "era_items_deleted"), 95, (some "u32"), []⟩], 20, []⟩, ⟨"reap_stash", [⟨(some "stash"), 0, (some "T::AccountId"), []⟩, ⟨(some "num_slashing_spans"), 4, (some "u32"), []⟩], 21, []⟩, ⟨"kick", [⟨(some "who"), 219, (some "Vec<<T::Lookup as StaticLookup>::Source>"), []⟩], 22, []⟩, ⟨"set_staking_limits", [⟨(some "min_nominator_bond"), 6, (some "BalanceOf<T>"), []⟩, ⟨(some "min_validator_bond"), 6, (some "BalanceOf<T>"), []⟩, ⟨(some "max_nominator_count"), 220, (some "Option<u32>"), []⟩, ⟨(some "max_validator_count"), 220, (some "Option<u32>"), []⟩, ⟨(some "threshold"), 221, (some "Option<Percent>"), []⟩], 23, []⟩, ⟨"chill_other", [⟨(some "controller"), 0, (some "T::AccountId"), []⟩], 24, []⟩], []⟩,
   ⟨[], [], .sequence 180, []⟩,
   ⟨["Option"], [("T", (some 4))], .variant [⟨"None", [], 0, []⟩, ⟨"Some", [⟨none, 4, none, []⟩], 1, []⟩], []⟩,
   ⟨["Option"], [("T", (some 217))], .variant [⟨"None", [], 0, []⟩, ⟨"Some", [⟨none, 217, none, []⟩], 1, []⟩], []⟩,
   ⟨["pallet_staking", "pallet", "pallet", "Error"], [("T", none)], .variant [⟨"NotController", [], 0, []⟩, ⟨"NotStash", [], 1, []⟩, ⟨"AlreadyBonded", [], 2, []⟩, ⟨"AlreadyPaired", [], 3, []⟩, ⟨"EmptyTargets", [], 4, []⟩, ⟨"DuplicateIndex", [], 5, []⟩, ⟨"InvalidSlashIndex", [], 6, []⟩, ⟨"InsufficientBond", [], 7, []⟩, ⟨"NoMoreChunks", [], 8, []⟩, ⟨"NoUnlockChunk", [], 9, []⟩, ⟨"FundedTarget", [], 10, []⟩, ⟨"InvalidEraToReward", [], 11, []⟩, ⟨"InvalidNumberOfNominations", [], 12, []⟩, ⟨"NotSortedAndUnique", [], 13, []⟩, ⟨"AlreadyClaimed", [], 14, []⟩, ⟨"IncorrectHistoryDepth", [], 15, []⟩, ⟨"IncorrectSlashingSpans", [], 16, []⟩, ⟨"BadState", [], 17, []⟩, ⟨"TooManyTargets", [], 18, []⟩, ⟨"BadTarget", [], 19, []⟩, ⟨"CannotChillOther", [], 20, []⟩, ⟨"TooManyNominators", [], 21, []⟩, ⟨"TooManyValidators", [], 22, []⟩], []⟩,
   ⟨["sp_staking", "offence", "OffenceDetails"], [("Reporter", (some 0)), ("Offender", (some 44))], .composite [⟨(some "offender"), 44, (some "Offender"), []⟩, ⟨(some "reporters"), 193, (some "Vec<Reporter>"), []⟩], []⟩]

/-- Types 224 to 255 of `for_tests/westend9111`. -/
def types7 : List Typ :=
  [⟨[], [], .tuple [33, 10], []⟩,
   ⟨[], [], .sequence 226, []⟩,
   ⟨[], [], .tuple [0, 227], []⟩,
   ⟨["westend_runtime", "SessionKeys"], [], .composite [⟨(some "grandpa"), 38, (some "<Grandpa as $crate::BoundToRuntimeAppPublic>::Public"), []⟩, ⟨(some "babe"), 151, (some "<Babe as $crate::BoundToRuntimeAppPublic>::Public"), []⟩, ⟨(some "im_online"), 41, (some "<ImOnline as $crate::BoundToRuntimeAppPublic>::Public"), []⟩, ⟨(some "para_validator"), 228, (some "<Initializer as $crate::BoundToRuntimeAppPublic>::Public"), []⟩, ⟨(some "para_assignment"), 229, (some "<ParaSessionInfo as $crate::BoundToRuntimeAppPublic>::Public"), []⟩, ⟨(some "authority_discovery"), 230, (some "<AuthorityDiscovery as $crate::BoundToRuntimeAppPublic>::Public"), []⟩], []⟩,
   ⟨["polkadot_primitives", "v0", "validator_app", "Public"], [], .composite [⟨none, 42, (some "sr25519::Public"), []⟩], []⟩,
   ⟨["polkadot_primitives", "v1", "assignment_app", "Public"], [], .composite [⟨none, 42, (some "sr25519::Public"), []⟩], []⟩,
   ⟨["sp_authority_discovery", "app", "Public"], [], .composite [⟨none, 42, (some "sr25519::Public"), []⟩], []⟩,
   ⟨[], [], .tuple [232, 10], []⟩,
   ⟨["sp_core", "crypto", "KeyTypeId"], [], .composite [⟨none, 14, (some "[u8; 4]"), []⟩], []⟩,
   ⟨["pallet_session", "pallet", "Call"], [("T", none)], .variant [⟨"set_keys", [⟨(some "keys"), 227, (some "T::Keys"), []⟩, ⟨(some "proof"), 10, (some "Vec<u8>"), []⟩], 0, []⟩, ⟨"purge_keys", [], 1, []⟩], []⟩,
   ⟨["pallet_session", "pallet", "Error"], [("T", none)], .variant [⟨"InvalidProof", [], 0, []⟩, ⟨"NoAssociatedValidatorId", [], 1, []⟩, ⟨"DuplicatedKey", [], 2, []⟩, ⟨"NoKeys", [], 3, []⟩, ⟨"NoAccount", [], 4, []⟩], []⟩,
   ⟨["pallet_grandpa", "StoredState"], [("N", (some 4))], .variant [⟨"Live", [], 0, []⟩, ⟨"PendingPause", [⟨(some "scheduled_at"), 4, (some "N"), []⟩, ⟨(some "delay"), 4, (some "N"), []⟩], 1, []⟩, ⟨"Paused", [], 2, []⟩, ⟨"PendingResume", [⟨(some "scheduled_at"), 4, (some "N"), []⟩, ⟨(some "delay"), 4, (some "N"), []⟩], 3, []⟩], []⟩,
   ⟨["pallet_grandpa", "StoredPendingChange"], [("N", (some 4)), ("Limit", none)], .composite [⟨(some "scheduled_at"), 4, (some "N"), []⟩, ⟨(some "delay"), 4, (some "N"), []⟩, ⟨(some "next_authorities"), 237, (some "BoundedAuthorityList<Limit>"), []⟩, ⟨(some "forced"), 220, (some "Option<N>"), []⟩], []⟩,
   ⟨["frame_support", "storage", "weak_bounded_vec", "WeakBoundedVec"], [("T", (some 37)), ("S", none)], .composite [⟨none, 36, (some "Vec<T>"), []⟩], []⟩,
   ⟨["pallet_grandpa", "pallet", "Call"], [("T", none)], .variant [⟨"report_equivocation", [⟨(some "equivocation_proof"), 239, (some "Box<EquivocationProof<T::Hash, T::BlockNumber>>"), []⟩, ⟨(some "key_owner_proof"), 165, (some "T::KeyOwnerProof"), []⟩], 0, []⟩, ⟨"report_equivocation_unsigned", [⟨(some "equivocation_proof"), 239, (some "Box<EquivocationProof<T::Hash, T::BlockNumber>>"), []⟩, ⟨(some "key_owner_proof"), 165, (some "T::KeyOwnerProof"), []⟩], 1, []⟩, ⟨"note_stalled", [⟨(some "delay"), 4, (some "T::BlockNumber"), []⟩, ⟨(some "best_finalized_block_number"), 4, (some "T::BlockNumber"), []⟩], 2, []⟩], []⟩,
   ⟨["sp_finality_grandpa", "EquivocationProof"], [("H", (some 9)), ("N", (some 4))], .composite [⟨(some "set_id"), 8, (some "SetId"), []⟩, ⟨(some "equivocation"), 240, (some "Equivocation<H, N>"), []⟩], []⟩,
   ⟨["sp_finality_grandpa", "Equivocation"], [("H", (some 9)), ("N", (some 4))], .variant [⟨"Prevote", [⟨none, 241, (some "grandpa::Equivocation<AuthorityId, grandpa::Prevote<H, N>,\nAuthoritySignature>"), []⟩], 0, []⟩, ⟨"Precommit", [⟨none, 246, (some "grandpa::Equivocation<AuthorityId, grandpa::Precommit<H, N>,\nAuthoritySignature>"), []⟩], 1, []⟩], []⟩,
   ⟨["finality_grandpa", "Equivocation"], [("Id", (some 38)), ("V", (some 242)), ("S", (some 243))], .composite [⟨(some "round_number"), 8, (some "u64"), []⟩, ⟨(some "identity"), 38, (some "Id"), []⟩, ⟨(some "first"), 245, (some "(V, S)"), []⟩, ⟨(some "second"), 245, (some "(V, S)"), []⟩], []⟩,
   ⟨["finality_grandpa", "Prevote"], [("H", (some 9)), ("N", (some 4))], .composite [⟨(some "target_hash"), 9, (some "H"), []⟩, ⟨(some "target_number"), 4, (some "N"), []⟩], []⟩,
   ⟨["sp_finality_grandpa", "app", "Signature"], [], .composite [⟨none, 244, (some "ed25519::Signature"), []⟩], []⟩,
   ⟨["sp_core", "ed25519", "Signature"], [], .composite [⟨none, 76, (some "[u8; 64]"), []⟩], []⟩,
   ⟨[], [], .tuple [242, 243], []⟩,
   ⟨["finality_grandpa", "Equivocation"], [("Id", (some 38)), ("V", (some 247)), ("S", (some 243))], .composite [⟨(some "round_number"), 8, (some "u64"), []⟩, ⟨(some "identity"), 38, (some "Id"), []⟩, ⟨(some "first"), 248, (some "(V, S)"), []⟩, ⟨(some "second"), 248, (some "(V, S)"), []⟩], []⟩,
   ⟨["finality_grandpa", "Precommit"], [("H", (some 9)), ("N", (some 4))], .composite [⟨(some "target_hash"), 9, (some "H"), []⟩, ⟨(some "target_number"), 4, (some "N"), []⟩], []⟩,
   ⟨[], [], .tuple [247, 243], []⟩,
   ⟨["pallet_grandpa", "pallet", "Error"], [("T", none)], .variant [⟨"PauseFailed", [], 0, []⟩, ⟨"ResumeFailed", [], 1, []⟩, ⟨"ChangePending", [], 2, []⟩, ⟨"TooSoon", [], 3, []⟩, ⟨"InvalidKeyOwnershipProof", [], 4, []⟩, ⟨"InvalidEquivocationProof", [], 5, []⟩, ⟨"DuplicateOffenceReport", [], 6, []⟩], []⟩,
   ⟨["frame_support", "storage", "weak_bounded_vec", "WeakBoundedVec"], [("T", (some 41)), ("S", none)], .composite [⟨none, 251, (some "Vec<T>"), []⟩], []⟩,
   ⟨[], [], .sequence 41, []⟩,
   ⟨["frame_support", "traits", "misc", "WrapperOpaque"], [("T", (some 253))], .composite [⟨none, 95, none, []⟩, ⟨none, 253, (some "T"), []⟩], []⟩,
   ⟨["pallet_im_online", "BoundedOpaqueNetworkState"], [("PeerIdEncodingLimit", none), ("MultiAddrEncodingLimit", none), ("AddressesLimit", none)], .composite [⟨(some "peer_id"), 254, (some "WeakBoundedVec<u8, PeerIdEncodingLimit>"), []⟩, ⟨(some "external_addresses"), 255, (some "WeakBoundedVec<WeakBoundedVec<u8, MultiAddrEncodingLimit>, AddressesLimit\n>"), []⟩], []⟩,
   ⟨["frame_support", "storage", "weak_bounded_vec", "WeakBoundedVec"], [("T", (some 2)), ("S", none)], .composite [⟨none, 10, (some "Vec<T>"), []⟩], []⟩,
   ⟨["frame_support", "storage", "weak_bounded_vec", "WeakBoundedVec"], [("T", (some 254)), ("S", none)], .composite [⟨none, 256, (some "Vec<T>"), []⟩], []⟩]

/-- Types 256 to 287 of `for_tests/westend9111`. -/
def types8 : List Typ :=
  [⟨[], [], .sequence 254, []⟩,
   ⟨["pallet_im_online", "pallet", "Call"], [("T", none)], .variant [⟨"heartbeat", [⟨(some "heartbeat"), 258, (some "Heartbeat<T::BlockNumber>"), []⟩, ⟨(some "signature"), 263, (some "<T::AuthorityId as RuntimeAppPublic>::Signature"), []⟩], 0, []⟩], []⟩,
   ⟨["pallet_im_online", "Heartbeat"], [("BlockNumber", (some 4))], .composite [⟨(some "block_number"), 4, (some "BlockNumber"), []⟩, ⟨(some "network_state"), 259, (some "OpaqueNetworkState"), []⟩, ⟨(some "session_index"), 4, (some "SessionIndex"), []⟩, ⟨(some "authority_index"), 4, (some "AuthIndex"), []⟩, ⟨(some "validators_len"), 4, (some "u32"), []⟩], []⟩,
   ⟨["sp_core", "offchain", "OpaqueNetworkState"], [], .composite [⟨(some "peer_id"), 260, (some "OpaquePeerId"), []⟩, ⟨(some "external_addresses"), 261, (some "Vec<OpaqueMultiaddr>"), []⟩], []⟩,
   ⟨["sp_core", "OpaquePeerId"], [], .composite [⟨none, 10, (some "Vec<u8>"), []⟩], []⟩,
   ⟨[], [], .sequence 262, []⟩,
   ⟨["sp_core", "offchain", "OpaqueMultiaddr"], [], .composite [⟨none, 10, (some "Vec<u8>"), []⟩], []⟩,
   ⟨["pallet_im_online", "sr25519", "app_sr25519", "Signature"], [], .composite [⟨none, 75, (some "sr25519::Signature"), []⟩], []⟩,
   ⟨["pallet_im_online", "pallet", "Error"], [("T", none)], .variant [⟨"InvalidKey", [], 0, []⟩, ⟨"DuplicatedHeartbeat", [], 1, []⟩], []⟩,
   ⟨["pallet_utility", "pallet", "Call"], [("T", none)], .variant [⟨"batch", [⟨(some "calls"), 266, (some "Vec<<T as Config>::Call>"), []⟩], 0, []⟩, ⟨"as_derivative", [⟨(some "index"), 61, (some "u16"), []⟩, ⟨(some "call"), 267, (some "Box<<T as Config>::Call>"), []⟩], 1, []⟩, ⟨"batch_all", [⟨(some "calls"), 266, (some "Vec<<T as Config>::Call>"), []⟩], 2, []⟩], []⟩,
   ⟨[], [], .sequence 267, []⟩,
   ⟨["westend_runtime", "Call"], [], .variant [⟨"System", [⟨none, 132, (some "self::sp_api_hidden_includes_construct_runtime::hidden_include::dispatch\n::CallableCallFor<System, Runtime>"), []⟩], 0, []⟩, ⟨"Babe", [⟨none, 161, (some "self::sp_api_hidden_includes_construct_runtime::hidden_include::dispatch\n::CallableCallFor<Babe, Runtime>"), []⟩], 1, []⟩, ⟨"Timestamp", [⟨none, 167, (some "self::sp_api_hidden_includes_construct_runtime::hidden_include::dispatch\n::CallableCallFor<Timestamp, Runtime>"), []⟩], 2, []⟩, ⟨"Indices", [⟨none, 169, (some "self::sp_api_hidden_includes_construct_runtime::hidden_include::dispatch\n::CallableCallFor<Indices, Runtime>"), []⟩], 3, []⟩, ⟨"Balances", [⟨none, 179, (some "self::sp_api_hidden_includes_construct_runtime::hidden_include::dispatch\n::CallableCallFor<Balances, Runtime>"), []⟩], 4, []⟩, ⟨"Authorship", [⟨none, 190, (some "self::sp_api_hidden_includes_construct_runtime::hidden_include::dispatch\n::CallableCallFor<Authorship, Runtime>"), []⟩], 5, []⟩, ⟨"Staking", [⟨none, 218, (some "self::sp_api_hidden_includes_construct_runtime::hidden_include::dispatch\n::CallableCallFor<Staking, Runtime>"), []⟩], 6, []⟩, ⟨"Session", [⟨none, 233, (some "self::sp_api_hidden_includes_construct_runtime::hidden_include::dispatch\n::CallableCallFor<Session, Runtime>"), []⟩], 8, []⟩, ⟨"Grandpa", [⟨none, 238, (some "self::sp_api_hidden_includes_construct_runtime::hidden_include::dispatch\n::CallableCallFor<Grandpa, Runtime>"), []⟩], 10, []⟩, ⟨"ImOnline", [⟨none, 257, (some "self::sp_api_hidden_includes_construct_runtime::hidden_include::dispatch\n::CallableCallFor<ImOnline, Runtime>"), []⟩], 11, []⟩, ⟨"Utility", [⟨none, 265, (some "self::sp_api_hidden_includes_construct_runtime::hidden_include::dispatch\n::CallableCallFor<Utility, Runtime>"), []⟩], 16, []⟩, ⟨"Identity", [⟨none, 268, (some "self::sp_api_hidden_includes_construct_runtime::hidden_include::dispatch\n::CallableCallFor<Identity, Runtime>"), []⟩], 17, []⟩, ⟨"Recovery", [⟨none, 308, (some "self::sp_api_hidden_includes_construct_runtime::hidden_include::dispatch\n::CallableCallFor<Recovery, Runtime>"), []⟩], 18, []⟩, ⟨"Vesting", [⟨none, 309, (some "self::sp_api_hidden_includes_construct_runtime::hidden_include::dispatch\n::CallableCallFor<Vesting, Runtime>"), []⟩], 19, []⟩, ⟨"Scheduler", [⟨none, 311, (some "self::sp_api_hidden_includes_construct_runtime::hidden_include::dispatch\n::CallableCallFor<Scheduler, Runtime>"), []⟩], 20, []⟩, ⟨"Sudo", [⟨none, 313, (some "self::sp_api_hidden_includes_construct_runtime::hidden_include::dispatch\n::CallableCallFor<Sudo, Runtime>"), []⟩], 21, []⟩, ⟨"Proxy", [⟨none, 314, (some "self::sp_api_hidden_includes_construct_runtime::hidden_include::dispatch\n::CallableCallFor<Proxy, Runtime>"), []⟩], 22, []⟩, ⟨"Multisig", [⟨none, 316, (some "self::sp_api_hidden_includes_construct_runtime::hidden_include::dispatch\n::CallableCallFor<Multisig, Runtime>"), []⟩], 23, []⟩, ⟨"ElectionProviderMultiPhase", [⟨none, 318, (some "self::sp_api_hidden_includes_construct_runtime::hidden_include::dispatch\n::CallableCallFor<ElectionProviderMultiPhase, Runtime>"), []⟩], 24, []⟩, ⟨"BagsList", [⟨none, 377, (some "self::sp_api_hidden_includes_construct_runtime::hidden_include::dispatch\n::CallableCallFor<BagsList, Runtime>"), []⟩], 25, []⟩, ⟨"Configuration", [⟨none, 378, (some "self::sp_api_hidden_includes_construct_runtime::hidden_include::dispatch\n::CallableCallFor<Configuration, Runtime>"), []⟩], 42, []⟩, ⟨"ParasShared", [⟨none, 379, (some "self::sp_api_hidden_includes_construct_runtime::hidden_include::dispatch\n::CallableCallFor<ParasShared, Runtime>"), []⟩], 43, []⟩, ⟨"ParaInclusion", [⟨none, 380, (some "self::sp_api_hidden_includes_construct_runtime::hidden_include::dispatch\n::CallableCallFor<ParaInclusion, Runtime>"), []⟩], 44, []⟩, ⟨"ParaInherent", [⟨none, 381, (some "self::sp_api_hidden_includes_construct_runtime::hidden_include::dispatch\n::CallableCallFor<ParaInherent, Runtime>"), []⟩], 45, []⟩, ⟨"Paras", [⟨none, 408, (some "self::sp_api_hidden_includes_construct_runtime::hidden_include::dispatch\n::CallableCallFor<Paras, Runtime>"), []⟩], 47, []⟩, ⟨"Initializer", [⟨none, 409, (some "self::sp_api_hidden_includes_construct_runtime::hidden_include::dispatch\n::CallableCallFor<Initializer, Runtime>"), []⟩], 48, []⟩, ⟨"Dmp", [⟨none, 410, (some "self::sp_api_hidden_includes_construct_runtime::hidden_include::dispatch\n::CallableCallFor<Dmp, Runtime>"), []⟩], 49, []⟩, ⟨"Ump", [⟨none, 411, (some "self::sp_api_hidden_includes_construct_runtime::hidden_include::dispatch\n::CallableCallFor<Ump, Runtime>"), []⟩], 50, []⟩, ⟨"Hrmp", [⟨none, 412, (some "self::sp_api_hidden_includes_construct_runtime::hidden_include::dispatch\n::CallableCallFor<Hrmp, Runtime>"), []⟩], 51, []⟩, ⟨"Registrar", [⟨none, 413, (some "self::sp_api_hidden_includes_construct_runtime::hidden_include::dispatch\n::CallableCallFor<Registrar, Runtime>"), []⟩], 60, []⟩, ⟨"Slots", [⟨none, 414, (some "self::sp_api_hidden_includes_construct_runtime::hidden_include::dispatch\n::CallableCallFor<Slots, Runtime>"), []⟩], 61, []⟩, ⟨"ParasSudoWrapper", [⟨none, 415, (some "self::sp_api_hidden_includes_construct_runtime::hidden_include::dispatch\n::CallableCallFor<ParasSudoWrapper, Runtime>"), []⟩], 62, []⟩, ⟨"Auctions", [⟨none, 428, (some "self::sp_api_hidden_includes_construct_runtime::hidden_include::dispatch\n::CallableCallFor<Auctions, Runtime>"), []⟩], 63, []⟩, ⟨"Crowdloan", [⟨none, 430, (some "self::sp_api_hidden_includes_construct_runtime::hidden_include::dispatch\n::CallableCallFor<Crowdloan, Runtime>"), []⟩], 64, []⟩, ⟨"XcmPallet", [⟨none, 439, (some "self::sp_api_hidden_includes_construct_runtime::hidden_include::dispatch\n::CallableCallFor<XcmPallet, Runtime>"), []⟩], 99, []⟩], []⟩,
   ⟨["pallet_identity", "pallet", "Call"], [("T", none)], .variant [⟨"add_registrar", [⟨(some "account"), 0, (some "T::AccountId"), []⟩], 0, []⟩, ⟨"set_identity", [⟨(some "info"), 269, (some "Box<IdentityInfo<T::MaxAdditionalFields>>"), []⟩], 1, []⟩, ⟨"set_subs", [⟨(some "subs"), 303, (some "Vec<(T::AccountId, Data)>"), []⟩], 2, []⟩, ⟨"clear_identity", [], 3, []⟩, ⟨"request_judgement", [⟨(some "reg_index"), 95, (some "RegistrarIndex"), []⟩, ⟨(some "max_fee"), 46, (some "BalanceOf<T>"), []⟩], 4, []⟩, ⟨"cancel_request", [⟨(some "reg_index"), 4, (some "RegistrarIndex"), []⟩], 5, []⟩, ⟨"set_fee", [⟨(some "index"), 95, (some "RegistrarIndex"), []⟩, ⟨(some "fee"), 46, (some "BalanceOf<T>"), []⟩], 6, []⟩, ⟨"set_account_id", [⟨(some "index"), 95, (some "RegistrarIndex"), []⟩, ⟨(some "new"), 0, (some "T::AccountId"), []⟩], 7, []⟩, ⟨"set_fields", [⟨(some "index"), 95, (some "RegistrarIndex"), []⟩, ⟨(some "fields"), 305, (some "IdentityFields"), []⟩], 8, []⟩, ⟨"provide_judgement", [⟨(some "reg_index"), 95, (some "RegistrarIndex"), []⟩, ⟨(some "target"), 180, (some "<T::Lookup as StaticLookup>::Source"), []⟩, ⟨(some "judgement"), 307, (some "Judgement<BalanceOf<T>>"), []⟩], 9, []⟩, ⟨"kill_identity", [⟨(some "target"), 180, (some "<T::Lookup as StaticLookup>::Source"), []⟩], 10, []⟩, ⟨"add_sub", [⟨(some "sub"), 180, (some "<T::Lookup as StaticLookup>::Source"), []⟩, ⟨(some "data"), 272, (some "Data"), []⟩], 11, []⟩, ⟨"rename_sub", [⟨(some "sub"), 180, (some "<T::Lookup as StaticLookup>::Source"), []⟩, ⟨(some "data"), 272, (some "Data"), []⟩], 12, []⟩, ⟨"remove_sub", [⟨(some "sub"), 180, (some "<T::Lookup as StaticLookup>::Source"), []⟩], 13, []⟩, ⟨"quit_sub", [], 14, []⟩], []⟩,
   ⟨["pallet_identity", "types", "IdentityInfo"], [("FieldLimit", none)], .composite [⟨(some "additional"), 270, (some "BoundedVec<(Data, Data), FieldLimit>"), []⟩, ⟨(some "display"), 272, (some "Data"), []⟩, ⟨(some "legal"), 272, (some "Data"), []⟩, ⟨(some "web"), 272, (some "Data"), []⟩, ⟨(some "riot"), 272, (some "Data"), []⟩, ⟨(some "email"), 272, (some "Data"), []⟩, ⟨(some "pgp_fingerprint"), 302, (some "Option<[u8; 20]>"), []⟩, ⟨(some "image"), 272, (some "Data"), []⟩, ⟨(some "twitter"), 272, (some "Data"), []⟩], []⟩,
   ⟨["frame_support", "storage", "bounded_vec", "BoundedVec"], [("T", (some 271)), ("S", none)], .composite [⟨none, 301, (some "Vec<T>"), []⟩], []⟩,
   ⟨[], [], .tuple [272, 272], []⟩,
   ⟨["pallet_identity", "types", "Data"], [], .variant [⟨"None", [], 0, []⟩, ⟨"Raw0", [⟨none, 273, none, []⟩], 1, []⟩, ⟨"Raw1", [⟨none, 274, none, []⟩], 2, []⟩, ⟨"Raw2", [⟨none, 275, none, []⟩], 3, []⟩, ⟨"Raw3", [⟨none, 276, none, []⟩], 4, []⟩, ⟨"Raw4", [⟨none, 14, none, []⟩], 5, []⟩, ⟨"Raw5", [⟨none, 277, none, []⟩], 6, []⟩, ⟨"Raw6", [⟨none, 278, none, []⟩], 7, []⟩, ⟨"Raw7", [⟨none, 279, none, []⟩], 8, []⟩, ⟨"Raw8", [⟨none, 110, none, []⟩], 9, []⟩, ⟨"Raw9", [⟨none, 280, none, []⟩], 10, []⟩, ⟨"Raw10", [⟨none, 281, none, []⟩], 11, []⟩, ⟨"Raw11", [⟨none, 282, none, []⟩], 12, []⟩, ⟨"Raw12", [⟨none, 283, none, []⟩], 13, []⟩, ⟨"Raw13", [⟨none, 284, none, []⟩], 14, []⟩, ⟨"Raw14", [⟨none, 285, none, []⟩], 15, []⟩, ⟨"Raw15", [⟨none, 286, none, []⟩], 16, []⟩, ⟨"Raw16", [⟨none, 33, none, []⟩], 17, []⟩, ⟨"Raw17", [⟨none, 287, none, []⟩], 18, []⟩, ⟨"Raw18", [⟨none, 288, none, []⟩], 19, []⟩, ⟨"Raw19", [⟨none, 289, none, []⟩], 20, []⟩, ⟨"Raw20", [⟨none, 98, none, []⟩], 21, []⟩, ⟨"Raw21", [⟨none, 290, none, []⟩], 22, []⟩, ⟨"Raw22", [⟨none, 291, none, []⟩], 23, []⟩, ⟨"Raw23", [⟨none, 292, none, []⟩], 24, []⟩, ⟨"Raw24", [⟨none, 293, none, []⟩], 25, []⟩, ⟨"Raw25", [⟨none, 294, none, []⟩], 26, []⟩, ⟨"Raw26", [⟨none, 295, none, []⟩], 27, []⟩, ⟨"Raw27", [⟨none, 296, none, []⟩], 28, []⟩, ⟨"Raw28", [⟨none, 297, none, []⟩], 29, []⟩, ⟨"Raw29", [⟨none, 298, none, []⟩], 30, []⟩, ⟨"Raw30", [⟨none, 299, none, []⟩], 31, []⟩, ⟨"Raw31", [⟨none, 300, none, []⟩], 32, []⟩, ⟨"Raw32", [⟨none, 1, none, []⟩], 33, []⟩, ⟨"BlakeTwo256", [⟨none, 1, none, []⟩], 34, []⟩, ⟨"Sha256", [⟨none, 1, none, []⟩], 35, []⟩, ⟨"Keccak256", [⟨none, 1, none, []⟩], 36, []⟩, ⟨"ShaThree256", [⟨none, 1, none, []⟩], 37, []⟩], []⟩,
   ⟨[], [], .array 0 2, []⟩,
   ⟨[], [], .array 1 2, []⟩,
   ⟨[], [], .array 2 2, []⟩,
   ⟨[], [], .array 3 2, []⟩,
   ⟨[], [], .array 5 2, []⟩,
   ⟨[], [], .array 6 2, []⟩,
   ⟨[], [], .array 7 2, []⟩,
   ⟨[], [], .array 9 2, []⟩,
   ⟨[], [], .array 10 2, []⟩,
   ⟨[], [], .array 11 2, []⟩,
   ⟨[], [], .array 12 2, []⟩,
   ⟨[], [], .array 13 2, []⟩,
   ⟨[], [], .array 14 2, []⟩,
   ⟨[], [], .array 15 2, []⟩,
   ⟨[], [], .array 17 2, []⟩]

/-- Types 288 to 319 of `for_tests/westend9111`. -/
def types9 : List Typ :=
  [⟨[], [], .array 18 2, []⟩,
   ⟨[], [], .array 19 2, []⟩,
   ⟨[], [], .array 21 2, []⟩,
   ⟨[], [], .array 22 2, []⟩,
   ⟨[], [], .array 23 2, []⟩,
   ⟨[], [], .array 24 2, []⟩,
   ⟨[], [], .array 25 2, []⟩,
   ⟨[], [], .array 26 2, []⟩,
   ⟨[], [], .array 27 2, []⟩,
   ⟨[], [], .array 28 2, []⟩,
   ⟨[], [], .array 29 2, []⟩,
   ⟨[], [], .array 30 2, []⟩,
   ⟨[], [], .array 31 2, []⟩,
   ⟨[], [], .sequence 271, []⟩,
   ⟨["Option"], [("T", (some 98))], .variant [⟨"None", [], 0, []⟩, ⟨"Some", [⟨none, 98, none, []⟩], 1, []⟩], []⟩,
   ⟨[], [], .sequence 304, []⟩,
   ⟨[], [], .tuple [0, 272], []⟩,
   ⟨["pallet_identity", "types", "BitFlags"], [("T", (some 306))], .composite [⟨none, 8, (some "IdentityField"), []⟩], []⟩,
   ⟨["pallet_identity", "types", "IdentityField"], [], .variant [⟨"Display", [], 1, []⟩, ⟨"Legal", [], 2, []⟩, ⟨"Web", [], 4, []⟩, ⟨"Riot", [], 8, []⟩, ⟨"Email", [], 16, []⟩, ⟨"PgpFingerprint", [], 32, []⟩, ⟨"Image", [], 64, []⟩, ⟨"Twitter", [], 128, []⟩], []⟩,
   ⟨["pallet_identity", "types", "Judgement"], [("Balance", (some 6))], .variant [⟨"Unknown", [], 0, []⟩, ⟨"FeePaid", [⟨none, 6, (some "Balance"), []⟩], 1, []⟩, ⟨"Reasonable", [], 2, []⟩, ⟨"KnownGood", [], 3, []⟩, ⟨"OutOfDate", [], 4, []⟩, ⟨"LowQuality", [], 5, []⟩, ⟨"Erroneous", [], 6, []⟩], []⟩,
   ⟨["pallet_recovery", "pallet", "Call"], [("T", none)], .variant [⟨"as_recovered", [⟨(some "account"), 0, (some "T::AccountId"), []⟩, ⟨(some "call"), 267, (some "Box<<T as Config>::Call>"), []⟩], 0, []⟩, ⟨"set_recovered", [⟨(some "lost"), 0, (some "T::AccountId"), []⟩, ⟨(some "rescuer"), 0, (some "T::AccountId"), []⟩], 1, []⟩, ⟨"create_recovery", [⟨(some "friends"), 193, (some "Vec<T::AccountId>"), []⟩, ⟨(some "threshold"), 61, (some "u16"), []⟩, ⟨(some "delay_period"), 4, (some "T::BlockNumber"), []⟩], 2, []⟩, ⟨"initiate_recovery", [⟨(some "account"), 0, (some "T::AccountId"), []⟩], 3, []⟩, ⟨"vouch_recovery", [⟨(some "lost"), 0, (some "T::AccountId"), []⟩, ⟨(some "rescuer"), 0, (some "T::AccountId"), []⟩], 4, []⟩, ⟨"claim_recovery", [⟨(some "account"), 0, (some "T::AccountId"), []⟩], 5, []⟩, ⟨"close_recovery", [⟨(some "rescuer"), 0, (some "T::AccountId"), []⟩], 6, []⟩, ⟨"remove_recovery", [], 7, []⟩, ⟨"cancel_recovered", [⟨(some "account"), 0, (some "T::AccountId"), []⟩], 8, []⟩], []⟩,
   ⟨["pallet_vesting", "pallet", "Call"], [("T", none)], .variant [⟨"vest", [], 0, []⟩, ⟨"vest_other", [⟨(some "target"), 180, (some "<T::Lookup as StaticLookup>::Source"), []⟩], 1, []⟩, ⟨"vested_transfer", [⟨(some "target"), 180, (some "<T::Lookup as StaticLookup>::Source"), []⟩, ⟨(some "schedule"), 310, (some "VestingInfo<BalanceOf<T>, T::BlockNumber>"), []⟩], 2, []⟩, ⟨"force_vested_transfer", [⟨(some "source"), 180, (some "<T::Lookup as StaticLookup>::Source"), []⟩, ⟨(some "target"), 180, (some "<T::Lookup as StaticLookup>::Source"), []⟩, ⟨(some "schedule"), 310, (some "VestingInfo<BalanceOf<T>, T::BlockNumber>"), []⟩], 3, []⟩, ⟨"merge_schedules", [⟨(some "schedule1_index"), 4, (some "u32"), []⟩, ⟨(some "schedule2_index"), 4, (some "u32"), []⟩], 4, []⟩], []⟩,
   ⟨["pallet_vesting", "vesting_info", "VestingInfo"], [("Balance", (some 6)), ("BlockNumber", (some 4))], .composite [⟨(some "locked"), 6, (some "Balance"), []⟩, ⟨(some "per_block"), 6, (some "Balance"), []⟩, ⟨(some "starting_block"), 4, (some "BlockNumber"), []⟩], []⟩,
   ⟨["pallet_scheduler", "pallet", "Call"], [("T", none)], .variant [⟨"schedule", [⟨(some "when"), 4, (some "T::BlockNumber"), []⟩, ⟨(some "maybe_periodic"), 312, (some "Option<schedule::Period<T::BlockNumber>>"), []⟩, ⟨(some "priority"), 2, (some "schedule::Priority"), []⟩, ⟨(some "call"), 267, (some "Box<<T as Config>::Call>"), []⟩], 0, []⟩, ⟨"cancel", [⟨(some "when"), 4, (some "T::BlockNumber"), []⟩, ⟨(some "index"), 4, (some "u32"), []⟩], 1, []⟩, ⟨"schedule_named", [⟨(some "id"), 10, (some "Vec<u8>"), []⟩, ⟨(some "when"), 4, (some "T::BlockNumber"), []⟩, ⟨(some "maybe_periodic"), 312, (some "Option<schedule::Period<T::BlockNumber>>"), []⟩, ⟨(some "priority"), 2, (some "schedule::Priority"), []⟩, ⟨(some "call"), 267, (some "Box<<T as Config>::Call>"), []⟩], 2, []⟩, ⟨"cancel_named", [⟨(some "id"), 10, (some "Vec<u8>"), []⟩], 3, []⟩, ⟨"schedule_after", [⟨(some "after"), 4, (some "T::BlockNumber"), []⟩, ⟨(some "maybe_periodic"), 312, (some "Option<schedule::Period<T::BlockNumber>>"), []⟩, ⟨(some "priority"), 2, (some "schedule::Priority"), []⟩, ⟨(some "call"), 267, (some "Box<<T as Config>::Call>"), []⟩], 4, []⟩, ⟨"schedule_named_after", [⟨(some "id"), 10, (some "Vec<u8>"), []⟩, ⟨(some "after"), 4, (some "T::BlockNumber"), []⟩, ⟨(some "maybe_periodic"), 312, (some "Option<schedule::Period<T::BlockNumber>>"), []⟩, ⟨(some "priority"), 2, (some "schedule::Priority"), []⟩, ⟨(some "call"), 267, (some "Box<<T as Config>::Call>"), []⟩], 5, []⟩], []⟩,
   ⟨["Option"], [("T", (some 54))], .variant [⟨"None", [], 0, []⟩, ⟨"Some", [⟨none, 54, none, []⟩], 1, []⟩], []⟩,
   ⟨["pallet_sudo", "pallet", "Call"], [("T", none)], .variant [⟨"sudo", [⟨(some "call"), 267, (some "Box<<T as Config>::Call>"), []⟩], 0, []⟩, ⟨"sudo_unchecked_weight", [⟨(some "call"), 267, (some "Box<<T as Config>::Call>"), []⟩, ⟨(some "weight"), 8, (some "Weight"), []⟩], 1, []⟩, ⟨"set_key", [⟨(some "new"), 180, (some "<T::Lookup as StaticLookup>::Source"), []⟩], 2, []⟩, ⟨"sudo_as", [⟨(some "who"), 180, (some "<T::Lookup as StaticLookup>::Source"), []⟩, ⟨(some "call"), 267, (some "Box<<T as Config>::Call>"), []⟩], 3, []⟩], []⟩,
   ⟨["pallet_proxy", "pallet", "Call"], [("T", none)], .variant [⟨"proxy", [⟨(some "real"), 0, (some "T::AccountId"), []⟩, ⟨(some "force_proxy_type"), 315, (some "Option<T::ProxyType>"), []⟩, ⟨(some "call"), 267, (some "Box<<T as Config>::Call>"), []⟩], 0, []⟩, ⟨"add_proxy", [⟨(some "delegate"), 0, (some "T::AccountId"), []⟩, ⟨(some "proxy_type"), 60, (some "T::ProxyType"), []⟩, ⟨(some "delay"), 4, (some "T::BlockNumber"), []⟩], 1, []⟩, ⟨"remove_proxy", [⟨(some "delegate"), 0, (some "T::AccountId"), []⟩, ⟨(some "proxy_type"), 60, (some "T::ProxyType"), []⟩, ⟨(some "delay"), 4, (some "T::BlockNumber"), []⟩], 2, []⟩, ⟨"remove_proxies", [], 3, []⟩, ⟨"anonymous", [⟨(some "proxy_type"), 60, (some "T::ProxyType"), []⟩, ⟨(some "delay"), 4, (some "T::BlockNumber"), []⟩, ⟨(some "index"), 61, (some "u16"), []⟩], 4, []⟩, ⟨"kill_anonymous", [⟨(some "spawner"), 0, (some "T::AccountId"), []⟩, ⟨(some "proxy_type"), 60, (some "T::ProxyType"), []⟩, ⟨(some "index"), 61, (some "u16"), []⟩, ⟨(some "height"), 95, (some "T::BlockNumber"), []⟩, ⟨(some "ext_index"), 95, (some "u32"), []⟩], 5, []⟩, ⟨"announce", [⟨(some "real"), 0, (some "T::AccountId"), []⟩, ⟨(some "call_hash"), 9, (some "CallHashOf<T>"), []⟩], 6, []⟩, ⟨"remove_announcement", [⟨(some "real"), 0, (some "T::AccountId"), []⟩, ⟨(some "call_hash"), 9, (some "CallHashOf<T>"), []⟩], 7, []⟩, ⟨"reject_announcement", [⟨(some "delegate"), 0, (some "T::AccountId"), []⟩, ⟨(some "call_hash"), 9, (some "CallHashOf<T>"), []⟩], 8, []⟩, ⟨"proxy_announced", [⟨(some "delegate"), 0, (some "T::AccountId"), []⟩, ⟨(some "real"), 0, (some "T::AccountId"), []⟩, ⟨(some "force_proxy_type"), 315, (some "Option<T::ProxyType>"), []⟩, ⟨(some "call"), 267, (some "Box<<T as Config>::Call>"), []⟩], 9, []⟩], []⟩,
   ⟨["Option"], [("T", (some 60))], .variant [⟨"None", [], 0, []⟩, ⟨"Some", [⟨none, 60, none, []⟩], 1, []⟩], []⟩,
   ⟨["pallet_multisig", "pallet", "Call"], [("T", none)], .variant [⟨"as_multi_threshold_1", [⟨(some "other_signatories"), 193, (some "Vec<T::AccountId>"), []⟩, ⟨(some "call"), 267, (some "Box<<T as Config>::Call>"), []⟩], 0, []⟩, ⟨"as_multi", [⟨(some "threshold"), 61, (some "u16"), []⟩, ⟨(some "other_signatories"), 193, (some "Vec<T::AccountId>"), []⟩, ⟨(some "maybe_timepoint"), 317, (some "Option<Timepoint<T::BlockNumber>>"), []⟩, ⟨(some "call"), 10, (some "OpaqueCall"), []⟩, ⟨(some "store_call"), 66, (some "bool"), []⟩, ⟨(some "max_weight"), 8, (some "Weight"), []⟩], 1, []⟩, ⟨"approve_as_multi", [⟨(some "threshold"), 61, (some "u16"), []⟩, ⟨(some "other_signatories"), 193, (some "Vec<T::AccountId>"), []⟩, ⟨(some "maybe_timepoint"), 317, (some "Option<Timepoint<T::BlockNumber>>"), []⟩, ⟨(some "call_hash"), 1, (some "[u8; 32]"), []⟩, ⟨(some "max_weight"), 8, (some "Weight"), []⟩], 2, []⟩, ⟨"cancel_as_multi", [⟨(some "threshold"), 61, (some "u16"), []⟩, ⟨(some "other_signatories"), 193, (some "Vec<T::AccountId>"), []⟩, ⟨(some "timepoint"), 63, (some "Timepoint<T::BlockNumber>"), []⟩, ⟨(some "call_hash"), 1, (some "[u8; 32]"), []⟩], 3, []⟩], []⟩,
   ⟨["Option"], [("T", (some 63))], .variant [⟨"None", [], 0, []⟩, ⟨"Some", [⟨none, 63, none, []⟩], 1, []⟩], []⟩,
   ⟨["pallet_election_provider_multi_phase", "pallet", "Call"], [("T", none)], .variant [⟨"submit_unsigned", [⟨(some "raw_solution"), 319, (some "Box<RawSolution<SolutionOf<T>>>"), []⟩, ⟨(some "witness"), 372, (some "SolutionOrSnapshotSize"), []⟩], 0, []⟩, ⟨"set_minimum_untrusted_score", [⟨(some "maybe_next_score"), 373, (some "Option<ElectionScore>"), []⟩], 1, []⟩, ⟨"set_emergency_election_result", [⟨(some "supports"), 374, (some "Supports<T::AccountId>"), []⟩], 2, []⟩, ⟨"submit", [⟨(some "raw_solution"), 319, (some "Box<RawSolution<SolutionOf<T>>>"), []⟩, ⟨(some "num_signed_submissions"), 4, (some "u32"), []⟩], 3, []⟩], []⟩,
   ⟨["pallet_election_provider_multi_phase", "RawSolution"], [("S", (some 320))], .composite [⟨(some "solution"), 320, (some "S"), []⟩, ⟨(some "score"), 371, (some "ElectionScore"), []⟩, ⟨(some "round"), 4, (some "u32"), []⟩], []⟩]

/-- Types 320 to 351 of `for_tests/westend9111`. -/
def types10 : List Typ :=
  [⟨["westend_runtime", "NposCompactSolution16"], [], .composite [⟨(some "votes1"), 321, none, []⟩, ⟨(some "votes2"), 324, none, []⟩, ⟨(some "votes3"), 329, none, []⟩, ⟨(some "votes4"), 332, none, []⟩, ⟨(some "votes5"), 335, none, []⟩, ⟨(some "votes6"), 338, none, []⟩, ⟨(some "votes7"), 341, none, []⟩, ⟨(some "votes8"), 344, none, []⟩, ⟨(some "votes9"), 347, none, []⟩, ⟨(some "votes10"), 350, none, []⟩, ⟨(some "votes11"), 353, none, []⟩, ⟨(some "votes12"), 356, none, []⟩, ⟨(some "votes13"), 359, none, []⟩, ⟨(some "votes14"), 362, none, []⟩, ⟨(some "votes15"), 365, none, []⟩, ⟨(some "votes16"), 368, none, []⟩], []⟩,
   ⟨[], [], .sequence 322, []⟩,
   ⟨[], [], .tuple [95, 323], []⟩,
   ⟨[], [], .compact 61, []⟩,
   ⟨[], [], .sequence 325, []⟩,
   ⟨[], [], .tuple [95, 326, 323], []⟩,
   ⟨[], [], .tuple [323, 327], []⟩,
   ⟨[], [], .compact 328, []⟩,
   ⟨["sp_arithmetic", "per_things", "PerU16"], [], .composite [⟨none, 61, (some "u16"), []⟩], []⟩,
   ⟨[], [], .sequence 330, []⟩,
   ⟨[], [], .tuple [95, 331, 323], []⟩,
   ⟨[], [], .array 2 326, []⟩,
   ⟨[], [], .sequence 333, []⟩,
   ⟨[], [], .tuple [95, 334, 323], []⟩,
   ⟨[], [], .array 3 326, []⟩,
   ⟨[], [], .sequence 336, []⟩,
   ⟨[], [], .tuple [95, 337, 323], []⟩,
   ⟨[], [], .array 4 326, []⟩,
   ⟨[], [], .sequence 339, []⟩,
   ⟨[], [], .tuple [95, 340, 323], []⟩,
   ⟨[], [], .array 5 326, []⟩,
   ⟨[], [], .sequence 342, []⟩,
   ⟨[], [], .tuple [95, 343, 323], []⟩,
   ⟨[], [], .array 6 326, []⟩,
   ⟨[], [], .sequence 345, []⟩,
   ⟨[], [], .tuple [95, 346, 323], []⟩,
   ⟨[], [], .array 7 326, []⟩,
   ⟨[], [], .sequence 348, []⟩,
   ⟨[], [], .tuple [95, 349, 323], []⟩,
   ⟨[], [], .array 8 326, []⟩,
   ⟨[], [], .sequence 351, []⟩,
   ⟨[], [], .tuple [95, 352, 323], []⟩]

/-- Types 352 to 383 of `for_tests/westend9111`. -/
def types11 : List Typ :=
  [⟨[], [], .array 9 326, []⟩,
   ⟨[], [], .sequence 354, []⟩,
   ⟨[], [], .tuple [95, 355, 323], []⟩,
   ⟨[], [], .array 10 326, []⟩,
   ⟨[], [], .sequence 357, []⟩,
   ⟨[], [], .tuple [95, 358, 323], []⟩,
   ⟨[], [], .array 11 326, []⟩,
   ⟨[], [], .sequence 360, []⟩,
   ⟨[], [], .tuple [95, 361, 323], []⟩,
   ⟨[], [], .array 12 326, []⟩,
   ⟨[], [], .sequence 363, []⟩,
   ⟨[], [], .tuple [95, 364, 323], []⟩,
   ⟨[], [], .array 13 326, []⟩,
   ⟨[], [], .sequence 366, []⟩,
   ⟨[], [], .tuple [95, 367, 323], []⟩,
   ⟨[], [], .array 14 326, []⟩,
   ⟨[], [], .sequence 369, []⟩,
   ⟨[], [], .tuple [95, 370, 323], []⟩,
   ⟨[], [], .array 15 326, []⟩,
   ⟨[], [], .array 3 6, []⟩,
   ⟨["pallet_election_provider_multi_phase", "SolutionOrSnapshotSize"], [], .composite [⟨(some "voters"), 95, (some "u32"), []⟩, ⟨(some "targets"), 95, (some "u32"), []⟩], []⟩,
   ⟨["Option"], [("T", (some 371))], .variant [⟨"None", [], 0, []⟩, ⟨"Some", [⟨none, 371, none, []⟩], 1, []⟩], []⟩,
   ⟨[], [], .sequence 375, []⟩,
   ⟨[], [], .tuple [0, 376], []⟩,
   ⟨["sp_npos_elections", "Support"], [("AccountId", (some 0))], .composite [⟨(some "total"), 6, (some "ExtendedBalance"), []⟩, ⟨(some "voters"), 211, (some "Vec<(AccountId, ExtendedBalance)>"), []⟩], []⟩,
   ⟨["pallet_bags_list", "pallet", "Call"], [("T", none)], .variant [⟨"rebag", [⟨(some "dislocated"), 0, (some "T::AccountId"), []⟩], 0, []⟩], []⟩,
   ⟨["polkadot_runtime_parachains", "configuration", "pallet", "Call"], [("T", none)], .variant [⟨"set_validation_upgrade_frequency", [⟨(some "new"), 4, (some "T::BlockNumber"), []⟩], 0, []⟩, ⟨"set_validation_upgrade_delay", [⟨(some "new"), 4, (some "T::BlockNumber"), []⟩], 1, []⟩, ⟨"set_code_retention_period", [⟨(some "new"), 4, (some "T::BlockNumber"), []⟩], 2, []⟩, ⟨"set_max_code_size", [⟨(some "new"), 4, (some "u32"), []⟩], 3, []⟩, ⟨"set_max_pov_size", [⟨(some "new"), 4, (some "u32"), []⟩], 4, []⟩, ⟨"set_max_head_data_size", [⟨(some "new"), 4, (some "u32"), []⟩], 5, []⟩, ⟨"set_parathread_cores", [⟨(some "new"), 4, (some "u32"), []⟩], 6, []⟩, ⟨"set_parathread_retries", [⟨(some "new"), 4, (some "u32"), []⟩], 7, []⟩, ⟨"set_group_rotation_frequency", [⟨(some "new"), 4, (some "T::BlockNumber"), []⟩], 8, []⟩, ⟨"set_chain_availability_period", [⟨(some "new"), 4, (some "T::BlockNumber"), []⟩], 9, []⟩, ⟨"set_thread_availability_period", [⟨(some "new"), 4, (some "T::BlockNumber"), []⟩], 10, []⟩, ⟨"set_scheduling_lookahead", [⟨(some "new"), 4, (some "u32"), []⟩], 11, []⟩, ⟨"set_max_validators_per_core", [⟨(some "new"), 220, (some "Option<u32>"), []⟩], 12, []⟩, ⟨"set_max_validators", [⟨(some "new"), 220, (some "Option<u32>"), []⟩], 13, []⟩, ⟨"set_dispute_period", [⟨(some "new"), 4, (some "SessionIndex"), []⟩], 14, []⟩, ⟨"set_dispute_post_conclusion_acceptance_period", [⟨(some "new"), 4, (some "T::BlockNumber"), []⟩], 15, []⟩, ⟨"set_dispute_max_spam_slots", [⟨(some "new"), 4, (some "u32"), []⟩], 16, []⟩, ⟨"set_dispute_conclusion_by_time_out_period", [⟨(some "new"), 4, (some "T::BlockNumber"), []⟩], 17, []⟩, ⟨"set_no_show_slots", [⟨(some "new"), 4, (some "u32"), []⟩], 18, []⟩, ⟨"set_n_delay_tranches", [⟨(some "new"), 4, (some "u32"), []⟩], 19, []⟩, ⟨"set_zeroth_delay_tranche_width", [⟨(some "new"), 4, (some "u32"), []⟩], 20, []⟩, ⟨"set_needed_approvals", [⟨(some "new"), 4, (some "u32"), []⟩], 21, []⟩, ⟨"set_relay_vrf_modulo_samples", [⟨(some "new"), 4, (some "u32"), []⟩], 22, []⟩, ⟨"set_max_upward_queue_count", [⟨(some "new"), 4, (some "u32"), []⟩], 23, []⟩, ⟨"set_max_upward_queue_size", [⟨(some "new"), 4, (some "u32"), []⟩], 24, []⟩, ⟨"set_max_downward_message_size", [⟨(some "new"), 4, (some "u32"), []⟩], 25, []⟩, ⟨"set_ump_service_total_weight", [⟨(some "new"), 8, (some "Weight"), []⟩], 26, []⟩, ⟨"set_max_upward_message_size", [⟨(some "new"), 4, (some "u32"), []⟩], 27, []⟩, ⟨"set_max_upward_message_num_per_candidate", [⟨(some "new"), 4, (some "u32"), []⟩], 28, []⟩, ⟨"set_hrmp_open_request_ttl", [⟨(some "new"), 4, (some "u32"), []⟩], 29, []⟩, ⟨"set_hrmp_sender_deposit", [⟨(some "new"), 6, (some "Balance"), []⟩], 30, []⟩, ⟨"set_hrmp_recipient_deposit", [⟨(some "new"), 6, (some "Balance"), []⟩], 31, []⟩, ⟨"set_hrmp_channel_max_capacity", [⟨(some "new"), 4, (some "u32"), []⟩], 32, []⟩, ⟨"set_hrmp_channel_max_total_size", [⟨(some "new"), 4, (some "u32"), []⟩], 33, []⟩, ⟨"set_hrmp_max_parachain_inbound_channels", [⟨(some "new"), 4, (some "u32"), []⟩], 34, []⟩, ⟨"set_hrmp_max_parathread_inbound_channels", [⟨(some "new"), 4, (some "u32"), []⟩], 35, []⟩, ⟨"set_hrmp_channel_max_message_size", [⟨(some "new"), 4, (some "u32"), []⟩], 36, []⟩, ⟨"set_hrmp_max_parachain_outbound_channels", [⟨(some "new"), 4, (some "u32"), []⟩], 37, []⟩, ⟨"set_hrmp_max_parathread_outbound_channels", [⟨(some "new"), 4, (some "u32"), []⟩], 38, []⟩, ⟨"set_hrmp_max_message_num_per_candidate", [⟨(some "new"), 4, (some "u32"), []⟩], 39, []⟩, ⟨"set_ump_max_individual_weight", [⟨(some "new"), 8, (some "Weight"), []⟩], 40, []⟩], []⟩,
   ⟨["polkadot_runtime_parachains", "shared", "pallet", "Call"], [("T", none)], .variant [], []⟩,
   ⟨["polkadot_runtime_parachains", "inclusion", "pallet", "Call"], [("T", none)], .variant [], []⟩,
   ⟨["polkadot_runtime_parachains", "paras_inherent", "pallet", "Call"], [("T", none)], .variant [⟨"enter", [⟨(some "data"), 382, (some "ParachainsInherentData<T::Header>"), []⟩], 0, []⟩], []⟩,
   ⟨["polkadot_primitives", "v1", "InherentData"], [("HDR", (some 163))], .composite [⟨(some "bitfields"), 383, (some "UncheckedSignedAvailabilityBitfields"), []⟩, ⟨(some "backed_candidates"), 390, (some "Vec<BackedCandidate<HDR::Hash>>"), []⟩, ⟨(some "disputes"), 400, (some "MultiDisputeStatementSet"), []⟩, ⟨(some "parent_header"), 163, (some "HDR"), []⟩], []⟩,
   ⟨[], [], .sequence 384, []⟩]

/-- Types 384 to 415 of `for_tests/westend9111`. -/
def types12 : List Typ :=
  [⟨["polkadot_primitives", "v1", "signed", "UncheckedSigned"], [("Payload", (some 385)), ("RealPayload", (some 385))], .composite [⟨(some "payload"), 385, (some "Payload"), []⟩, ⟨(some "validator_index"), 388, (some "ValidatorIndex"), []⟩, ⟨(some "signature"), 389, (some "ValidatorSignature"), []⟩], []⟩,
   ⟨["polkadot_primitives", "v1", "AvailabilityBitfield"], [], .composite [⟨none, 386, (some "BitVec<bitvec::order::Lsb0, u8>"), []⟩], []⟩,
   ⟨[], [], .bitSequence 387 2, []⟩,
   ⟨["bitvec", "order", "Lsb0"], [], .composite [], []⟩,
   ⟨["polkadot_primitives", "v0", "ValidatorIndex"], [], .composite [⟨none, 4, (some "u32"), []⟩], []⟩,
   ⟨["polkadot_primitives", "v0", "validator_app", "Signature"], [], .composite [⟨none, 75, (some "sr25519::Signature"), []⟩], []⟩,
   ⟨[], [], .sequence 391, []⟩,
   ⟨["polkadot_primitives", "v1", "BackedCandidate"], [("H", (some 9))], .composite [⟨(some "candidate"), 392, (some "CommittedCandidateReceipt<H>"), []⟩, ⟨(some "validity_votes"), 398, (some "Vec<ValidityAttestation>"), []⟩, ⟨(some "validator_indices"), 386, (some "BitVec<bitvec::order::Lsb0, u8>"), []⟩], []⟩,
   ⟨["polkadot_primitives", "v1", "CommittedCandidateReceipt"], [("H", (some 9))], .composite [⟨(some "descriptor"), 71, (some "CandidateDescriptor<H>"), []⟩, ⟨(some "commitments"), 393, (some "CandidateCommitments"), []⟩], []⟩,
   ⟨["polkadot_primitives", "v1", "CandidateCommitments"], [("N", (some 4))], .composite [⟨(some "upward_messages"), 136, (some "Vec<UpwardMessage>"), []⟩, ⟨(some "horizontal_messages"), 394, (some "Vec<OutboundHrmpMessage<Id>>"), []⟩, ⟨(some "new_validation_code"), 396, (some "Option<ValidationCode>"), []⟩, ⟨(some "head_data"), 78, (some "HeadData"), []⟩, ⟨(some "processed_downward_messages"), 4, (some "u32"), []⟩, ⟨(some "hrmp_watermark"), 4, (some "N"), []⟩], []⟩,
   ⟨[], [], .sequence 395, []⟩,
   ⟨["polkadot_core_primitives", "OutboundHrmpMessage"], [("Id", (some 72))], .composite [⟨(some "recipient"), 72, (some "Id"), []⟩, ⟨(some "data"), 10, (some "sp_std::vec::Vec<u8>"), []⟩], []⟩,
   ⟨["Option"], [("T", (some 397))], .variant [⟨"None", [], 0, []⟩, ⟨"Some", [⟨none, 397, none, []⟩], 1, []⟩], []⟩,
   ⟨["polkadot_parachain", "primitives", "ValidationCode"], [], .composite [⟨none, 10, (some "Vec<u8>"), []⟩], []⟩,
   ⟨[], [], .sequence 399, []⟩,
   ⟨["polkadot_primitives", "v0", "ValidityAttestation"], [], .variant [⟨"Implicit", [⟨none, 389, (some "ValidatorSignature"), []⟩], 1, []⟩, ⟨"Explicit", [⟨none, 389, (some "ValidatorSignature"), []⟩], 2, []⟩], []⟩,
   ⟨[], [], .sequence 401, []⟩,
   ⟨["polkadot_primitives", "v1", "DisputeStatementSet"], [], .composite [⟨(some "candidate_hash"), 402, (some "CandidateHash"), []⟩, ⟨(some "session"), 4, (some "SessionIndex"), []⟩, ⟨(some "statements"), 403, (some "Vec<(DisputeStatement, ValidatorIndex, ValidatorSignature)>"), []⟩], []⟩,
   ⟨["polkadot_core_primitives", "CandidateHash"], [], .composite [⟨none, 9, (some "Hash"), []⟩], []⟩,
   ⟨[], [], .sequence 404, []⟩,
   ⟨[], [], .tuple [405, 388, 389], []⟩,
   ⟨["polkadot_primitives", "v1", "DisputeStatement"], [], .variant [⟨"Valid", [⟨none, 406, (some "ValidDisputeStatementKind"), []⟩], 0, []⟩, ⟨"Invalid", [⟨none, 407, (some "InvalidDisputeStatementKind"), []⟩], 1, []⟩], []⟩,
   ⟨["polkadot_primitives", "v1", "ValidDisputeStatementKind"], [], .variant [⟨"Explicit", [], 0, []⟩, ⟨"BackingSeconded", [⟨none, 9, (some "Hash"), []⟩], 1, []⟩, ⟨"BackingValid", [⟨none, 9, (some "Hash"), []⟩], 2, []⟩, ⟨"ApprovalChecking", [], 3, []⟩], []⟩,
   ⟨["polkadot_primitives", "v1", "InvalidDisputeStatementKind"], [], .variant [⟨"Explicit", [], 0, []⟩], []⟩,
   ⟨["polkadot_runtime_parachains", "paras", "pallet", "Call"], [("T", none)], .variant [⟨"force_set_current_code", [⟨(some "para"), 72, (some "ParaId"), []⟩, ⟨(some "new_code"), 397, (some "ValidationCode"), []⟩], 0, []⟩, ⟨"force_set_current_head", [⟨(some "para"), 72, (some "ParaId"), []⟩, ⟨(some "new_head"), 78, (some "HeadData"), []⟩], 1, []⟩, ⟨"force_schedule_code_upgrade", [⟨(some "para"), 72, (some "ParaId"), []⟩, ⟨(some "new_code"), 397, (some "ValidationCode"), []⟩, ⟨(some "relay_parent_number"), 4, (some "T::BlockNumber"), []⟩], 2, []⟩, ⟨"force_note_new_head", [⟨(some "para"), 72, (some "ParaId"), []⟩, ⟨(some "new_head"), 78, (some "HeadData"), []⟩], 3, []⟩, ⟨"force_queue_action", [⟨(some "para"), 72, (some "ParaId"), []⟩], 4, []⟩], []⟩,
   ⟨["polkadot_runtime_parachains", "initializer", "pallet", "Call"], [("T", none)], .variant [⟨"force_approve", [⟨(some "up_to"), 4, (some "BlockNumber"), []⟩], 0, []⟩], []⟩,
   ⟨["polkadot_runtime_parachains", "dmp", "pallet", "Call"], [("T", none)], .variant [], []⟩,
   ⟨["polkadot_runtime_parachains", "ump", "pallet", "Call"], [("T", none)], .variant [⟨"service_overweight", [⟨(some "index"), 8, (some "OverweightIndex"), []⟩, ⟨(some "weight_limit"), 8, (some "Weight"), []⟩], 0, []⟩], []⟩,
   ⟨["polkadot_runtime_parachains", "hrmp", "pallet", "Call"], [("T", none)], .variant [⟨"hrmp_init_open_channel", [⟨(some "recipient"), 72, (some "ParaId"), []⟩, ⟨(some "proposed_max_capacity"), 4, (some "u32"), []⟩, ⟨(some "proposed_max_message_size"), 4, (some "u32"), []⟩], 0, []⟩, ⟨"hrmp_accept_open_channel", [⟨(some "sender"), 72, (some "ParaId"), []⟩], 1, []⟩, ⟨"hrmp_close_channel", [⟨(some "channel_id"), 86, (some "HrmpChannelId"), []⟩], 2, []⟩, ⟨"force_clean_hrmp", [⟨(some "para"), 72, (some "ParaId"), []⟩], 3, []⟩, ⟨"force_process_hrmp_open", [], 4, []⟩, ⟨"force_process_hrmp_close", [], 5, []⟩, ⟨"hrmp_cancel_open_request", [⟨(some "channel_id"), 86, (some "HrmpChannelId"), []⟩], 6, []⟩], []⟩,
   ⟨["polkadot_runtime_common", "paras_registrar", "pallet", "Call"], [("T", none)], .variant [⟨"register", [⟨(some "id"), 72, (some "ParaId"), []⟩, ⟨(some "genesis_head"), 78, (some "HeadData"), []⟩, ⟨(some "validation_code"), 397, (some "ValidationCode"), []⟩], 0, []⟩, ⟨"force_register", [⟨(some "who"), 0, (some "T::AccountId"), []⟩, ⟨(some "deposit"), 6, (some "BalanceOf<T>"), []⟩, ⟨(some "id"), 72, (some "ParaId"), []⟩, ⟨(some "genesis_head"), 78, (some "HeadData"), []⟩, ⟨(some "validation_code"), 397, (some "ValidationCode"), []⟩], 1, []⟩, ⟨"deregister", [⟨(some "id"), 72, (some "ParaId"), []⟩], 2, []⟩, ⟨"swap", [⟨(some "id"), 72, (some "ParaId"), []⟩, ⟨(some "other"), 72, (some "ParaId"), []⟩], 3, []⟩, ⟨"force_remove_lock", [⟨(some "para"), 72, (some "ParaId"), []⟩], 4, []⟩, ⟨"reserve", [], 5, []⟩], []⟩,
   ⟨["polkadot_runtime_common", "slots", "pallet", "Call"], [("T", none)], .variant [⟨"force_lease", [⟨(some "para"), 72, (some "ParaId"), []⟩, ⟨(some "leaser"), 0, (some "T::AccountId"), []⟩, ⟨(some "amount"), 6, (some "BalanceOf<T>"), []⟩, ⟨(some "period_begin"), 4, (some "LeasePeriodOf<T>"), []⟩, ⟨(some "period_count"), 4, (some "LeasePeriodOf<T>"), []⟩], 0, []⟩, ⟨"clear_all_leases", [⟨(some "para"), 72, (some "ParaId"), []⟩], 1, []⟩, ⟨"trigger_onboard", [⟨(some "para"), 72, (some "ParaId"), []⟩], 2, []⟩], []⟩,
   ⟨["polkadot_runtime_common", "paras_sudo_wrapper", "pallet", "Call"], [("T", none)], .variant [⟨"sudo_schedule_para_initialize", [⟨(some "id"), 72, (some "ParaId"), []⟩, ⟨(some "genesis"), 416, (some "ParaGenesisArgs"), []⟩], 0, []⟩, ⟨"sudo_schedule_para_cleanup", [⟨(some "id"), 72, (some "ParaId"), []⟩], 1, []⟩, ⟨"sudo_schedule_parathread_upgrade", [⟨(some "id"), 72, (some "ParaId"), []⟩], 2, []⟩, ⟨"sudo_schedule_parachain_downgrade", [⟨(some "id"), 72, (some "ParaId"), []⟩], 3, []⟩, ⟨"sudo_queue_downward_xcm", [⟨(some "id"), 72, (some "ParaId"), []⟩, ⟨(some "xcm"), 417, (some "Box<xcm::opaque::VersionedXcm>"), []⟩], 4, []⟩, ⟨"sudo_establish_hrmp_channel", [⟨(some "sender"), 72, (some "ParaId"), []⟩, ⟨(some "recipient"), 72, (some "ParaId"), []⟩, ⟨(some "max_capacity"), 4, (some "u32"), []⟩, ⟨(some "max_message_size"), 4, (some "u32"), []⟩], 5, []⟩], []⟩]

/-- Types 416 to 447 of `for_tests/westend9111`. -/
def types13 : List Typ :=
  [⟨["polkadot_runtime_parachains", "paras", "ParaGenesisArgs"], [], .composite [⟨(some "genesis_head"), 78, (some "HeadData"), []⟩, ⟨(some "validation_code"), 397, (some "ValidationCode"), []⟩, ⟨(some "parachain"), 66, (some "bool"), []⟩], []⟩,
   ⟨["xcm", "VersionedXcm"], [("Call", none)], .variant [⟨"V0", [⟨none, 418, (some "v0::Xcm<Call>"), []⟩], 0, []⟩, ⟨"V1", [⟨none, 423, (some "v1::Xcm<Call>"), []⟩], 1, []⟩, ⟨"V2", [⟨none, 101, (some "v2::Xcm<Call>"), []⟩], 2, []⟩], []⟩,
   ⟨["xcm", "v0", "Xcm"], [("Call", none)], .variant [⟨"WithdrawAsset", [⟨(some "assets"), 122, (some "Vec<MultiAsset>"), []⟩, ⟨(some "effects"), 419, (some "Vec<Order<Call>>"), []⟩], 0, []⟩, ⟨"ReserveAssetDeposit", [⟨(some "assets"), 122, (some "Vec<MultiAsset>"), []⟩, ⟨(some "effects"), 419, (some "Vec<Order<Call>>"), []⟩], 1, []⟩, ⟨"TeleportAsset", [⟨(some "assets"), 122, (some "Vec<MultiAsset>"), []⟩, ⟨(some "effects"), 419, (some "Vec<Order<Call>>"), []⟩], 2, []⟩, ⟨"QueryResponse", [⟨(some "query_id"), 97, (some "u64"), []⟩, ⟨(some "response"), 422, (some "Response"), []⟩], 3, []⟩, ⟨"TransferAsset", [⟨(some "assets"), 122, (some "Vec<MultiAsset>"), []⟩, ⟨(some "dest"), 124, (some "MultiLocation"), []⟩], 4, []⟩, ⟨"TransferReserveAsset", [⟨(some "assets"), 122, (some "Vec<MultiAsset>"), []⟩, ⟨(some "dest"), 124, (some "MultiLocation"), []⟩, ⟨(some "effects"), 419, (some "Vec<Order<()>>"), []⟩], 5, []⟩, ⟨"Transact", [⟨(some "origin_type"), 114, (some "OriginKind"), []⟩, ⟨(some "require_weight_at_most"), 8, (some "u64"), []⟩, ⟨(some "call"), 115, (some "DoubleEncoded<Call>"), []⟩], 6, []⟩, ⟨"HrmpNewChannelOpenRequest", [⟨(some "sender"), 95, (some "u32"), []⟩, ⟨(some "max_message_size"), 95, (some "u32"), []⟩, ⟨(some "max_capacity"), 95, (some "u32"), []⟩], 7, []⟩, ⟨"HrmpChannelAccepted", [⟨(some "recipient"), 95, (some "u32"), []⟩], 8, []⟩, ⟨"HrmpChannelClosing", [⟨(some "initiator"), 95, (some "u32"), []⟩, ⟨(some "sender"), 95, (some "u32"), []⟩, ⟨(some "recipient"), 95, (some "u32"), []⟩], 9, []⟩, ⟨"RelayedFrom", [⟨(some "who"), 124, (some "MultiLocation"), []⟩, ⟨(some "message"), 418, (some "alloc::boxed::Box<Xcm<Call>>"), []⟩], 10, []⟩], []⟩,
   ⟨[], [], .sequence 420, []⟩,
   ⟨["xcm", "v0", "order", "Order"], [("Call", none)], .variant [⟨"Null", [], 0, []⟩, ⟨"DepositAsset", [⟨(some "assets"), 122, (some "Vec<MultiAsset>"), []⟩, ⟨(some "dest"), 124, (some "MultiLocation"), []⟩], 1, []⟩, ⟨"DepositReserveAsset", [⟨(some "assets"), 122, (some "Vec<MultiAsset>"), []⟩, ⟨(some "dest"), 124, (some "MultiLocation"), []⟩, ⟨(some "effects"), 419, (some "Vec<Order<()>>"), []⟩], 2, []⟩, ⟨"ExchangeAsset", [⟨(some "give"), 122, (some "Vec<MultiAsset>"), []⟩, ⟨(some "receive"), 122, (some "Vec<MultiAsset>"), []⟩], 3, []⟩, ⟨"InitiateReserveWithdraw", [⟨(some "assets"), 122, (some "Vec<MultiAsset>"), []⟩, ⟨(some "reserve"), 124, (some "MultiLocation"), []⟩, ⟨(some "effects"), 419, (some "Vec<Order<()>>"), []⟩], 4, []⟩, ⟨"InitiateTeleport", [⟨(some "assets"), 122, (some "Vec<MultiAsset>"), []⟩, ⟨(some "dest"), 124, (some "MultiLocation"), []⟩, ⟨(some "effects"), 419, (some "Vec<Order<()>>"), []⟩], 5, []⟩, ⟨"QueryHolding", [⟨(some "query_id"), 97, (some "u64"), []⟩, ⟨(some "dest"), 124, (some "MultiLocation"), []⟩, ⟨(some "assets"), 122, (some "Vec<MultiAsset>"), []⟩], 6, []⟩, ⟨"BuyExecution", [⟨(some "fees"), 123, (some "MultiAsset"), []⟩, ⟨(some "weight"), 8, (some "u64"), []⟩, ⟨(some "debt"), 8, (some "u64"), []⟩, ⟨(some "halt_on_error"), 66, (some "bool"), []⟩, ⟨(some "xcm"), 421, (some "Vec<Xcm<Call>>"), []⟩], 7, []⟩], []⟩,
   ⟨[], [], .sequence 418, []⟩,
   ⟨["xcm", "v0", "Response"], [], .variant [⟨"Assets", [⟨none, 122, (some "Vec<MultiAsset>"), []⟩], 0, []⟩], []⟩,
   ⟨["xcm", "v1", "Xcm"], [("Call", none)], .variant [⟨"WithdrawAsset", [⟨(some "assets"), 104, (some "MultiAssets"), []⟩, ⟨(some "effects"), 424, (some "Vec<Order<Call>>"), []⟩], 0, []⟩, ⟨"ReserveAssetDeposited", [⟨(some "assets"), 104, (some "MultiAssets"), []⟩, ⟨(some "effects"), 424, (some "Vec<Order<Call>>"), []⟩], 1, []⟩, ⟨"ReceiveTeleportedAsset", [⟨(some "assets"), 104, (some "MultiAssets"), []⟩, ⟨(some "effects"), 424, (some "Vec<Order<Call>>"), []⟩], 2, []⟩, ⟨"QueryResponse", [⟨(some "query_id"), 97, (some "u64"), []⟩, ⟨(some "response"), 427, (some "Response"), []⟩], 3, []⟩, ⟨"TransferAsset", [⟨(some "assets"), 104, (some "MultiAssets"), []⟩, ⟨(some "beneficiary"), 92, (some "MultiLocation"), []⟩], 4, []⟩, ⟨"TransferReserveAsset", [⟨(some "assets"), 104, (some "MultiAssets"), []⟩, ⟨(some "dest"), 92, (some "MultiLocation"), []⟩, ⟨(some "effects"), 424, (some "Vec<Order<()>>"), []⟩], 5, []⟩, ⟨"Transact", [⟨(some "origin_type"), 114, (some "OriginKind"), []⟩, ⟨(some "require_weight_at_most"), 8, (some "u64"), []⟩, ⟨(some "call"), 115, (some "DoubleEncoded<Call>"), []⟩], 6, []⟩, ⟨"HrmpNewChannelOpenRequest", [⟨(some "sender"), 95, (some "u32"), []⟩, ⟨(some "max_message_size"), 95, (some "u32"), []⟩, ⟨(some "max_capacity"), 95, (some "u32"), []⟩], 7, []⟩, ⟨"HrmpChannelAccepted", [⟨(some "recipient"), 95, (some "u32"), []⟩], 8, []⟩, ⟨"HrmpChannelClosing", [⟨(some "initiator"), 95, (some "u32"), []⟩, ⟨(some "sender"), 95, (some "u32"), []⟩, ⟨(some "recipient"), 95, (some "u32"), []⟩], 9, []⟩, ⟨"RelayedFrom", [⟨(some "who"), 93, (some "InteriorMultiLocation"), []⟩, ⟨(some "message"), 423, (some "alloc::boxed::Box<Xcm<Call>>"), []⟩], 10, []⟩, ⟨"SubscribeVersion", [⟨(some "query_id"), 97, (some "u64"), []⟩, ⟨(some "max_response_weight"), 97, (some "u64"), []⟩], 11, []⟩, ⟨"UnsubscribeVersion", [], 12, []⟩], []⟩,
   ⟨[], [], .sequence 425, []⟩,
   ⟨["xcm", "v1", "order", "Order"], [("Call", none)], .variant [⟨"Noop", [], 0, []⟩, ⟨"DepositAsset", [⟨(some "assets"), 116, (some "MultiAssetFilter"), []⟩, ⟨(some "max_assets"), 4, (some "u32"), []⟩, ⟨(some "beneficiary"), 92, (some "MultiLocation"), []⟩], 1, []⟩, ⟨"DepositReserveAsset", [⟨(some "assets"), 116, (some "MultiAssetFilter"), []⟩, ⟨(some "max_assets"), 4, (some "u32"), []⟩, ⟨(some "dest"), 92, (some "MultiLocation"), []⟩, ⟨(some "effects"), 424, (some "Vec<Order<()>>"), []⟩], 2, []⟩, ⟨"ExchangeAsset", [⟨(some "give"), 116, (some "MultiAssetFilter"), []⟩, ⟨(some "receive"), 104, (some "MultiAssets"), []⟩], 3, []⟩, ⟨"InitiateReserveWithdraw", [⟨(some "assets"), 116, (some "MultiAssetFilter"), []⟩, ⟨(some "reserve"), 92, (some "MultiLocation"), []⟩, ⟨(some "effects"), 424, (some "Vec<Order<()>>"), []⟩], 4, []⟩, ⟨"InitiateTeleport", [⟨(some "assets"), 116, (some "MultiAssetFilter"), []⟩, ⟨(some "dest"), 92, (some "MultiLocation"), []⟩, ⟨(some "effects"), 424, (some "Vec<Order<()>>"), []⟩], 5, []⟩, ⟨"QueryHolding", [⟨(some "query_id"), 97, (some "u64"), []⟩, ⟨(some "dest"), 92, (some "MultiLocation"), []⟩, ⟨(some "assets"), 116, (some "MultiAssetFilter"), []⟩], 6, []⟩, ⟨"BuyExecution", [⟨(some "fees"), 106, (some "MultiAsset"), []⟩, ⟨(some "weight"), 8, (some "u64"), []⟩, ⟨(some "debt"), 8, (some "u64"), []⟩, ⟨(some "halt_on_error"), 66, (some "bool"), []⟩, ⟨(some "instructions"), 426, (some "Vec<Xcm<Call>>"), []⟩], 7, []⟩], []⟩,
   ⟨[], [], .sequence 423, []⟩,
   ⟨["xcm", "v1", "Response"], [], .variant [⟨"Assets", [⟨none, 104, (some "MultiAssets"), []⟩], 0, []⟩, ⟨"Version", [⟨none, 4, (some "super::Version"), []⟩], 1, []⟩], []⟩,
   ⟨["polkadot_runtime_common", "auctions", "pallet", "Call"], [("T", none)], .variant [⟨"new_auction", [⟨(some "duration"), 95, (some "T::BlockNumber"), []⟩, ⟨(some "lease_period_index"), 95, (some "LeasePeriodOf<T>"), []⟩], 0, []⟩, ⟨"bid", [⟨(some "para"), 429, (some "ParaId"), []⟩, ⟨(some "auction_index"), 95, (some "AuctionIndex"), []⟩, ⟨(some "first_slot"), 95, (some "LeasePeriodOf<T>"), []⟩, ⟨(some "last_slot"), 95, (some "LeasePeriodOf<T>"), []⟩, ⟨(some "amount"), 46, (some "BalanceOf<T>"), []⟩], 1, []⟩, ⟨"cancel_auction", [], 2, []⟩], []⟩,
   ⟨[], [], .compact 72, []⟩,
   ⟨["polkadot_runtime_common", "crowdloan", "pallet", "Call"], [("T", none)], .variant [⟨"create", [⟨(some "index"), 429, (some "ParaId"), []⟩, ⟨(some "cap"), 46, (some "BalanceOf<T>"), []⟩, ⟨(some "first_period"), 95, (some "LeasePeriodOf<T>"), []⟩, ⟨(some "last_period"), 95, (some "LeasePeriodOf<T>"), []⟩, ⟨(some "end"), 95, (some "T::BlockNumber"), []⟩, ⟨(some "verifier"), 431, (some "Option<MultiSigner>"), []⟩], 0, []⟩, ⟨"contribute", [⟨(some "index"), 429, (some "ParaId"), []⟩, ⟨(some "value"), 46, (some "BalanceOf<T>"), []⟩, ⟨(some "signature"), 435, (some "Option<MultiSignature>"), []⟩], 1, []⟩, ⟨"withdraw", [⟨(some "who"), 0, (some "T::AccountId"), []⟩, ⟨(some "index"), 429, (some "ParaId"), []⟩], 2, []⟩, ⟨"refund", [⟨(some "index"), 429, (some "ParaId"), []⟩], 3, []⟩, ⟨"dissolve", [⟨(some "index"), 429, (some "ParaId"), []⟩], 4, []⟩, ⟨"edit", [⟨(some "index"), 429, (some "ParaId"), []⟩, ⟨(some "cap"), 46, (some "BalanceOf<T>"), []⟩, ⟨(some "first_period"), 95, (some "LeasePeriodOf<T>"), []⟩, ⟨(some "last_period"), 95, (some "LeasePeriodOf<T>"), []⟩, ⟨(some "end"), 95, (some "T::BlockNumber"), []⟩, ⟨(some "verifier"), 431, (some "Option<MultiSigner>"), []⟩], 5, []⟩, ⟨"add_memo", [⟨(some "index"), 72, (some "ParaId"), []⟩, ⟨(some "memo"), 10, (some "Vec<u8>"), []⟩], 6, []⟩, ⟨"poke", [⟨(some "index"), 72, (some "ParaId"), []⟩], 7, []⟩], []⟩,
   ⟨["Option"], [("T", (some 432))], .variant [⟨"None", [], 0, []⟩, ⟨"Some", [⟨none, 432, none, []⟩], 1, []⟩], []⟩,
   ⟨["sp_runtime", "MultiSigner"], [], .variant [⟨"Ed25519", [⟨none, 39, (some "ed25519::Public"), []⟩], 0, []⟩, ⟨"Sr25519", [⟨none, 42, (some "sr25519::Public"), []⟩], 1, []⟩, ⟨"Ecdsa", [⟨none, 433, (some "ecdsa::Public"), []⟩], 2, []⟩], []⟩,
   ⟨["sp_core", "ecdsa", "Public"], [], .composite [⟨none, 434, (some "[u8; 33]"), []⟩], []⟩,
   ⟨[], [], .array 33 2, []⟩,
   ⟨["Option"], [("T", (some 436))], .variant [⟨"None", [], 0, []⟩, ⟨"Some", [⟨none, 436, none, []⟩], 1, []⟩], []⟩,
   ⟨["sp_runtime", "MultiSignature"], [], .variant [⟨"Ed25519", [⟨none, 244, (some "ed25519::Signature"), []⟩], 0, []⟩, ⟨"Sr25519", [⟨none, 75, (some "sr25519::Signature"), []⟩], 1, []⟩, ⟨"Ecdsa", [⟨none, 437, (some "ecdsa::Signature"), []⟩], 2, []⟩], []⟩,
   ⟨["sp_core", "ecdsa", "Signature"], [], .composite [⟨none, 438, (some "[u8; 65]"), []⟩], []⟩,
   ⟨[], [], .array 65 2, []⟩,
   ⟨["pallet_xcm", "pallet", "Call"], [("T", none)], .variant [⟨"send", [⟨(some "dest"), 126, (some "Box<VersionedMultiLocation>"), []⟩, ⟨(some "message"), 417, (some "Box<VersionedXcm<()>>"), []⟩], 0, []⟩, ⟨"teleport_assets", [⟨(some "dest"), 126, (some "Box<VersionedMultiLocation>"), []⟩, ⟨(some "beneficiary"), 126, (some "Box<VersionedMultiLocation>"), []⟩, ⟨(some "assets"), 121, (some "Box<VersionedMultiAssets>"), []⟩, ⟨(some "fee_asset_item"), 4, (some "u32"), []⟩], 1, []⟩, ⟨"reserve_transfer_assets", [⟨(some "dest"), 126, (some "Box<VersionedMultiLocation>"), []⟩, ⟨(some "beneficiary"), 126, (some "Box<VersionedMultiLocation>"), []⟩, ⟨(some "assets"), 121, (some "Box<VersionedMultiAssets>"), []⟩, ⟨(some "fee_asset_item"), 4, (some "u32"), []⟩], 2, []⟩, ⟨"execute", [⟨(some "message"), 440, (some "Box<VersionedXcm<<T as SysConfig>::Call>>"), []⟩, ⟨(some "max_weight"), 8, (some "Weight"), []⟩], 3, []⟩, ⟨"force_xcm_version", [⟨(some "location"), 92, (some "Box<MultiLocation>"), []⟩, ⟨(some "xcm_version"), 4, (some "XcmVersion"), []⟩], 4, []⟩, ⟨"force_default_xcm_version", [⟨(some "maybe_xcm_version"), 220, (some "Option<XcmVersion>"), []⟩], 5, []⟩, ⟨"force_subscribe_version_notify", [⟨(some "location"), 126, (some "Box<VersionedMultiLocation>"), []⟩], 6, []⟩, ⟨"force_unsubscribe_version_notify", [⟨(some "location"), 126, (some "Box<VersionedMultiLocation>"), []⟩], 7, []⟩], []⟩,
   ⟨["xcm", "VersionedXcm"], [("Call", none)], .variant [⟨"V0", [⟨none, 441, (some "v0::Xcm<Call>"), []⟩], 0, []⟩, ⟨"V1", [⟨none, 446, (some "v1::Xcm<Call>"), []⟩], 1, []⟩, ⟨"V2", [⟨none, 450, (some "v2::Xcm<Call>"), []⟩], 2, []⟩], []⟩,
   ⟨["xcm", "v0", "Xcm"], [("Call", none)], .variant [⟨"WithdrawAsset", [⟨(some "assets"), 122, (some "Vec<MultiAsset>"), []⟩, ⟨(some "effects"), 442, (some "Vec<Order<Call>>"), []⟩], 0, []⟩, ⟨"ReserveAssetDeposit", [⟨(some "assets"), 122, (some "Vec<MultiAsset>"), []⟩, ⟨(some "effects"), 442, (some "Vec<Order<Call>>"), []⟩], 1, []⟩, ⟨"TeleportAsset", [⟨(some "assets"), 122, (some "Vec<MultiAsset>"), []⟩, ⟨(some "effects"), 442, (some "Vec<Order<Call>>"), []⟩], 2, []⟩, ⟨"QueryResponse", [⟨(some "query_id"), 97, (some "u64"), []⟩, ⟨(some "response"), 422, (some "Response"), []⟩], 3, []⟩, ⟨"TransferAsset", [⟨(some "assets"), 122, (some "Vec<MultiAsset>"), []⟩, ⟨(some "dest"), 124, (some "MultiLocation"), []⟩], 4, []⟩, ⟨"TransferReserveAsset", [⟨(some "assets"), 122, (some "Vec<MultiAsset>"), []⟩, ⟨(some "dest"), 124, (some "MultiLocation"), []⟩, ⟨(some "effects"), 419, (some "Vec<Order<()>>"), []⟩], 5, []⟩, ⟨"Transact", [⟨(some "origin_type"), 114, (some "OriginKind"), []⟩, ⟨(some "require_weight_at_most"), 8, (some "u64"), []⟩, ⟨(some "call"), 445, (some "DoubleEncoded<Call>"), []⟩], 6, []⟩, ⟨"HrmpNewChannelOpenRequest", [⟨(some "sender"), 95, (some "u32"), []⟩, ⟨(some "max_message_size"), 95, (some "u32"), []⟩, ⟨(some "max_capacity"), 95, (some "u32"), []⟩], 7, []⟩, ⟨"HrmpChannelAccepted", [⟨(some "recipient"), 95, (some "u32"), []⟩], 8, []⟩, ⟨"HrmpChannelClosing", [⟨(some "initiator"), 95, (some "u32"), []⟩, ⟨(some "sender"), 95, (some "u32"), []⟩, ⟨(some "recipient"), 95, (some "u32"), []⟩], 9, []⟩, ⟨"RelayedFrom", [⟨(some "who"), 124, (some "MultiLocation"), []⟩, ⟨(some "message"), 441, (some "alloc::boxed::Box<Xcm<Call>>"), []⟩], 10, []⟩], []⟩,
   ⟨[], [], .sequence 443, []⟩,
   ⟨["xcm", "v0", "order", "Order"], [("Call", none)], .variant [⟨"Null", [], 0, []⟩, ⟨"DepositAsset", [⟨(some "assets"), 122, (some "Vec<MultiAsset>"), []⟩, ⟨(some "dest"), 124, (some "MultiLocation"), []⟩], 1, []⟩, ⟨"DepositReserveAsset", [⟨(some "assets"), 122, (some "Vec<MultiAsset>"), []⟩, ⟨(some "dest"), 124, (some "MultiLocation"), []⟩, ⟨(some "effects"), 419, (some "Vec<Order<()>>"), []⟩], 2, []⟩, ⟨"ExchangeAsset", [⟨(some "give"), 122, (some "Vec<MultiAsset>"), []⟩, ⟨(some "receive"), 122, (some "Vec<MultiAsset>"), []⟩], 3, []⟩, ⟨"InitiateReserveWithdraw", [⟨(some "assets"), 122, (some "Vec<MultiAsset>"), []⟩, ⟨(some "reserve"), 124, (some "MultiLocation"), []⟩, ⟨(some "effects"), 419, (some "Vec<Order<()>>"), []⟩], 4, []⟩, ⟨"InitiateTeleport", [⟨(some "assets"), 122, (some "Vec<MultiAsset>"), []⟩, ⟨(some "dest"), 124, (some "MultiLocation"), []⟩, ⟨(some "effects"), 419, (some "Vec<Order<()>>"), []⟩], 5, []⟩, ⟨"QueryHolding", [⟨(some "query_id"), 97, (some "u64"), []⟩, ⟨(some "dest"), 124, (some "MultiLocation"), []⟩, ⟨(some "assets"), 122, (some "Vec<MultiAsset>"), []⟩], 6, []⟩, ⟨"BuyExecution", [⟨(some "fees"), 123, (some "MultiAsset"), []⟩, ⟨(some "weight"), 8, (some "u64"), []⟩, ⟨(some "debt"), 8, (some "u64"), []⟩, ⟨(some "halt_on_error"), 66, (some "bool"), []⟩, ⟨(some "xcm"), 444, (some "Vec<Xcm<Call>>"), []⟩], 7, []⟩], []⟩,
   ⟨[], [], .sequence 441, []⟩,
   ⟨["xcm", "double_encoded", "DoubleEncoded"], [("T", none)], .composite [⟨(some "encoded"), 10, (some "Vec<u8>"), []⟩], []⟩,
   ⟨["xcm", "v1", "Xcm"], [("Call", none)], .variant [⟨"WithdrawAsset", [⟨(some "assets"), 104, (some "MultiAssets"), []⟩, ⟨(some "effects"), 447, (some "Vec<Order<Call>>"), []⟩], 0, []⟩, ⟨"ReserveAssetDeposited", [⟨(some "assets"), 104, (some "MultiAssets"), []⟩, ⟨(some "effects"), 447, (some "Vec<Order<Call>>"), []⟩], 1, []⟩, ⟨"ReceiveTeleportedAsset", [⟨(some "assets"), 104, (some "MultiAssets"), []⟩, ⟨(some "effects"), 447, (some "Vec<Order<Call>>"), []⟩], 2, []⟩, ⟨"QueryResponse", [⟨(some "query_id"), 97, (some "u64"), []⟩, ⟨(some "response"), 427, (some "Response"), []⟩], 3, []⟩, ⟨"TransferAsset", [⟨(some "assets"), 104, (some "MultiAssets"), []⟩, ⟨(some "beneficiary"), 92, (some "MultiLocation"), []⟩], 4, []⟩, ⟨"TransferReserveAsset", [⟨(some "assets"), 104, (some "MultiAssets"), []⟩, ⟨(some "dest"), 92, (some "MultiLocation"), []⟩, ⟨(some "effects"), 424, (some "Vec<Order<()>>"), []⟩], 5, []⟩, ⟨"Transact", [⟨(some "origin_type"), 114, (some "OriginKind"), []⟩, ⟨(some "require_weight_at_most"), 8, (some "u64"), []⟩, ⟨(some "call"), 445, (some "DoubleEncoded<Call>"), []⟩], 6, []⟩, ⟨"HrmpNewChannelOpenRequest", [⟨(some "sender"), 95, (some "u32"), []⟩, ⟨(some "max_message_size"), 95, (some "u32"), []⟩, ⟨(some "max_capacity"), 95, (some "u32"), []⟩], 7, []⟩, ⟨"HrmpChannelAccepted", [⟨(some "recipient"), 95, (some "u32"), []⟩], 8, []⟩, ⟨"HrmpChannelClosing", [⟨(some "initiator"), 95, (some "u32"), []⟩, ⟨(some "sender"), 95, (some "u32"), []⟩, ⟨(some "recipient"), 95, (some "u32"), []⟩], 9, []⟩, ⟨"RelayedFrom", [⟨(some "who"), 93, (some "InteriorMultiLocation"), []⟩, ⟨(some "message"), 446, (some "alloc::boxed::Box<Xcm<Call>>"), []⟩], 10, []⟩, ⟨"SubscribeVersion", [⟨(some "query_id"), 97, (some "u64"), []⟩, ⟨(some "max_response_weight"), 97, (some "u64"), []⟩], 11, []⟩, ⟨"UnsubscribeVersion", [], 12, []⟩], []⟩,
   ⟨[], [], .sequence 448, []⟩]

/-- Types 448 to 479 of `for_tests/westend9111`. -/
def types14 : List Typ :=
  [⟨["xcm", "v1", "order", "Order"], [("Call", none)], .variant [⟨"Noop", [], 0, []⟩, ⟨"DepositAsset", [⟨(some "assets"), 116, (some "MultiAssetFilter"), []⟩, ⟨(some "max_assets"), 4, (some "u32"), []⟩, ⟨(some "beneficiary"), 92, (some "MultiLocation"), []⟩], 1, []⟩, ⟨"DepositReserveAsset", [⟨(some "assets"), 116, (some "MultiAssetFilter"), []⟩, ⟨(some "max_assets"), 4, (some "u32"), []⟩, ⟨(some "dest"), 92, (some "MultiLocation"), []⟩, ⟨(some "effects"), 424, (some "Vec<Order<()>>"), []⟩], 2, []⟩, ⟨"ExchangeAsset", [⟨(some "give"), 116, (some "MultiAssetFilter"), []⟩, ⟨(some "receive"), 104, (some "MultiAssets"), []⟩], 3, []⟩, ⟨"InitiateReserveWithdraw", [⟨(some "assets"), 116, (some "MultiAssetFilter"), []⟩, ⟨(some "reserve"), 92, (some "MultiLocation"), []⟩, ⟨(some "effects"), 424, (some "Vec<Order<()>>"), []⟩], 4, []⟩, ⟨"InitiateTeleport", [⟨(some "assets"), 116, (some "MultiAssetFilter"), []⟩, ⟨(some "dest"), 92, (some "MultiLocation"), []⟩, ⟨(some "effects"), 424, (some "Vec<Order<()>>"), []⟩], 5, []⟩, ⟨"QueryHolding", [⟨(some "query_id"), 97, (some "u64"), []⟩, ⟨(some "dest"), 92, (some "MultiLocation"), []⟩, ⟨(some "assets"), 116, (some "MultiAssetFilter"), []⟩], 6, []⟩, ⟨"BuyExecution", [⟨(some "fees"), 106, (some "MultiAsset"), []⟩, ⟨(some "weight"), 8, (some "u64"), []⟩, ⟨(some "debt"), 8, (some "u64"), []⟩, ⟨(some "halt_on_error"), 66, (some "bool"), []⟩, ⟨(some "instructions"), 449, (some "Vec<Xcm<Call>>"), []⟩], 7, []⟩], []⟩,
   ⟨[], [], .sequence 446, []⟩,
   ⟨["xcm", "v2", "Xcm"], [("Call", none)], .composite [⟨none, 451, (some "Vec<Instruction<Call>>"), []⟩], []⟩,
   ⟨[], [], .sequence 452, []⟩,
   ⟨["xcm", "v2", "Instruction"], [("Call", none)], .variant [⟨"WithdrawAsset", [⟨none, 104, (some "MultiAssets"), []⟩], 0, []⟩, ⟨"ReserveAssetDeposited", [⟨none, 104, (some "MultiAssets"), []⟩], 1, []⟩, ⟨"ReceiveTeleportedAsset", [⟨none, 104, (some "MultiAssets"), []⟩], 2, []⟩, ⟨"QueryResponse", [⟨(some "query_id"), 97, (some "QueryId"), []⟩, ⟨(some "response"), 111, (some "Response"), []⟩, ⟨(some "max_weight"), 97, (some "u64"), []⟩], 3, []⟩, ⟨"TransferAsset", [⟨(some "assets"), 104, (some "MultiAssets"), []⟩, ⟨(some "beneficiary"), 92, (some "MultiLocation"), []⟩], 4, []⟩, ⟨"TransferReserveAsset", [⟨(some "assets"), 104, (some "MultiAssets"), []⟩, ⟨(some "dest"), 92, (some "MultiLocation"), []⟩, ⟨(some "xcm"), 101, (some "Xcm<()>"), []⟩], 5, []⟩, ⟨"Transact", [⟨(some "origin_type"), 114, (some "OriginKind"), []⟩, ⟨(some "require_weight_at_most"), 97, (some "u64"), []⟩, ⟨(some "call"), 445, (some "DoubleEncoded<Call>"), []⟩], 6, []⟩, ⟨"HrmpNewChannelOpenRequest", [⟨(some "sender"), 95, (some "u32"), []⟩, ⟨(some "max_message_size"), 95, (some "u32"), []⟩, ⟨(some "max_capacity"), 95, (some "u32"), []⟩], 7, []⟩, ⟨"HrmpChannelAccepted", [⟨(some "recipient"), 95, (some "u32"), []⟩], 8, []⟩, ⟨"HrmpChannelClosing", [⟨(some "initiator"), 95, (some "u32"), []⟩, ⟨(some "sender"), 95, (some "u32"), []⟩, ⟨(some "recipient"), 95, (some "u32"), []⟩], 9, []⟩, ⟨"ClearOrigin", [], 10, []⟩, ⟨"DescendOrigin", [⟨none, 93, (some "InteriorMultiLocation"), []⟩], 11, []⟩, ⟨"ReportError", [⟨(some "query_id"), 97, (some "QueryId"), []⟩, ⟨(some "dest"), 92, (some "MultiLocation"), []⟩, ⟨(some "max_response_weight"), 97, (some "u64"), []⟩], 12, []⟩, ⟨"DepositAsset", [⟨(some "assets"), 116, (some "MultiAssetFilter"), []⟩, ⟨(some "max_assets"), 95, (some "u32"), []⟩, ⟨(some "beneficiary"), 92, (some "MultiLocation"), []⟩], 13, []⟩, ⟨"DepositReserveAsset", [⟨(some "assets"), 116, (some "MultiAssetFilter"), []⟩, ⟨(some "max_assets"), 95, (some "u32"), []⟩, ⟨(some "dest"), 92, (some "MultiLocation"), []⟩, ⟨(some "xcm"), 101, (some "Xcm<()>"), []⟩], 14, []⟩, ⟨"ExchangeAsset", [⟨(some "give"), 116, (some "MultiAssetFilter"), []⟩, ⟨(some "receive"), 104, (some "MultiAssets"), []⟩], 15, []⟩, ⟨"InitiateReserveWithdraw", [⟨(some "assets"), 116, (some "MultiAssetFilter"), []⟩, ⟨(some "reserve"), 92, (some "MultiLocation"), []⟩, ⟨(some "xcm"), 101, (some "Xcm<()>"), []⟩], 16, []⟩, ⟨"InitiateTeleport", [⟨(some "assets"), 116, (some "MultiAssetFilter"), []⟩, ⟨(some "dest"), 92, (some "MultiLocation"), []⟩, ⟨(some "xcm"), 101, (some "Xcm<()>"), []⟩], 17, []⟩, ⟨"QueryHolding", [⟨(some "query_id"), 97, (some "QueryId"), []⟩, ⟨(some "dest"), 92, (some "MultiLocation"), []⟩, ⟨(some "assets"), 116, (some "MultiAssetFilter"), []⟩, ⟨(some "max_response_weight"), 97, (some "u64"), []⟩], 18, []⟩, ⟨"BuyExecution", [⟨(some "fees"), 106, (some "MultiAsset"), []⟩, ⟨(some "weight_limit"), 119, (some "WeightLimit"), []⟩], 19, []⟩, ⟨"RefundSurplus", [], 20, []⟩, ⟨"SetErrorHandler", [⟨none, 450, (some "Xcm<Call>"), []⟩], 21, []⟩, ⟨"SetAppendix", [⟨none, 450, (some "Xcm<Call>"), []⟩], 22, []⟩, ⟨"ClearError", [], 23, []⟩, ⟨"ClaimAsset", [⟨(some "assets"), 104, (some "MultiAssets"), []⟩, ⟨(some "ticket"), 92, (some "MultiLocation"), []⟩], 24, []⟩, ⟨"Trap", [⟨none, 97, (some "u64"), []⟩], 25, []⟩, ⟨"SubscribeVersion", [⟨(some "query_id"), 97, (some "QueryId"), []⟩, ⟨(some "max_response_weight"), 97, (some "u64"), []⟩], 26, []⟩, ⟨"UnsubscribeVersion", [], 27, []⟩], []⟩,
   ⟨["pallet_utility", "pallet", "Error"], [("T", none)], .variant [⟨"TooManyCalls", [], 0, []⟩], []⟩,
   ⟨["pallet_identity", "types", "Registration"], [("Balance", (some 6)), ("MaxJudgements", none), ("MaxAdditionalFields", none)], .composite [⟨(some "judgements"), 455, (some "BoundedVec<(RegistrarIndex, Judgement<Balance>), MaxJudgements>"), []⟩, ⟨(some "deposit"), 6, (some "Balance"), []⟩, ⟨(some "info"), 269, (some "IdentityInfo<MaxAdditionalFields>"), []⟩], []⟩,
   ⟨["frame_support", "storage", "bounded_vec", "BoundedVec"], [("T", (some 456)), ("S", none)], .composite [⟨none, 457, (some "Vec<T>"), []⟩], []⟩,
   ⟨[], [], .tuple [4, 307], []⟩,
   ⟨[], [], .sequence 456, []⟩,
   ⟨[], [], .tuple [6, 459], []⟩,
   ⟨["frame_support", "storage", "bounded_vec", "BoundedVec"], [("T", (some 0)), ("S", none)], .composite [⟨none, 193, (some "Vec<T>"), []⟩], []⟩,
   ⟨["frame_support", "storage", "bounded_vec", "BoundedVec"], [("T", (some 461)), ("S", none)], .composite [⟨none, 463, (some "Vec<T>"), []⟩], []⟩,
   ⟨["Option"], [("T", (some 462))], .variant [⟨"None", [], 0, []⟩, ⟨"Some", [⟨none, 462, none, []⟩], 1, []⟩], []⟩,
   ⟨["pallet_identity", "types", "RegistrarInfo"], [("Balance", (some 6)), ("AccountId", (some 0))], .composite [⟨(some "account"), 0, (some "AccountId"), []⟩, ⟨(some "fee"), 6, (some "Balance"), []⟩, ⟨(some "fields"), 305, (some "IdentityFields"), []⟩], []⟩,
   ⟨[], [], .sequence 461, []⟩,
   ⟨["pallet_identity", "pallet", "Error"], [("T", none)], .variant [⟨"TooManySubAccounts", [], 0, []⟩, ⟨"NotFound", [], 1, []⟩, ⟨"NotNamed", [], 2, []⟩, ⟨"EmptyIndex", [], 3, []⟩, ⟨"FeeChanged", [], 4, []⟩, ⟨"NoIdentity", [], 5, []⟩, ⟨"StickyJudgement", [], 6, []⟩, ⟨"JudgementGiven", [], 7, []⟩, ⟨"InvalidJudgement", [], 8, []⟩, ⟨"InvalidIndex", [], 9, []⟩, ⟨"InvalidTarget", [], 10, []⟩, ⟨"TooManyFields", [], 11, []⟩, ⟨"TooManyRegistrars", [], 12, []⟩, ⟨"AlreadyClaimed", [], 13, []⟩, ⟨"NotSub", [], 14, []⟩, ⟨"NotOwned", [], 15, []⟩], []⟩,
   ⟨["pallet_recovery", "RecoveryConfig"], [("BlockNumber", (some 4)), ("Balance", (some 6)), ("AccountId", (some 0))], .composite [⟨(some "delay_period"), 4, (some "BlockNumber"), []⟩, ⟨(some "deposit"), 6, (some "Balance"), []⟩, ⟨(some "friends"), 193, (some "Vec<AccountId>"), []⟩, ⟨(some "threshold"), 61, (some "u16"), []⟩], []⟩,
   ⟨[], [], .tuple [0, 0], []⟩,
   ⟨["pallet_recovery", "ActiveRecovery"], [("BlockNumber", (some 4)), ("Balance", (some 6)), ("AccountId", (some 0))], .composite [⟨(some "created"), 4, (some "BlockNumber"), []⟩, ⟨(some "deposit"), 6, (some "Balance"), []⟩, ⟨(some "friends"), 193, (some "Vec<AccountId>"), []⟩], []⟩,
   ⟨["pallet_recovery", "pallet", "Error"], [("T", none)], .variant [⟨"NotAllowed", [], 0, []⟩, ⟨"ZeroThreshold", [], 1, []⟩, ⟨"NotEnoughFriends", [], 2, []⟩, ⟨"MaxFriends", [], 3, []⟩, ⟨"NotSorted", [], 4, []⟩, ⟨"NotRecoverable", [], 5, []⟩, ⟨"AlreadyRecoverable", [], 6, []⟩, ⟨"AlreadyStarted", [], 7, []⟩, ⟨"NotStarted", [], 8, []⟩, ⟨"NotFriend", [], 9, []⟩, ⟨"DelayPeriod", [], 10, []⟩, ⟨"AlreadyVouched", [], 11, []⟩, ⟨"Threshold", [], 12, []⟩, ⟨"StillActive", [], 13, []⟩, ⟨"AlreadyProxy", [], 14, []⟩, ⟨"BadState", [], 15, []⟩], []⟩,
   ⟨["frame_support", "storage", "bounded_vec", "BoundedVec"], [("T", (some 310)), ("S", none)], .composite [⟨none, 470, (some "Vec<T>"), []⟩], []⟩,
   ⟨[], [], .sequence 310, []⟩,
   ⟨["pallet_vesting", "Releases"], [], .variant [⟨"V0", [], 0, []⟩, ⟨"V1", [], 1, []⟩], []⟩,
   ⟨["pallet_vesting", "pallet", "Error"], [("T", none)], .variant [⟨"NotVesting", [], 0, []⟩, ⟨"AtMaxVestingSchedules", [], 1, []⟩, ⟨"AmountLow", [], 2, []⟩, ⟨"ScheduleIndexOutOfBounds", [], 3, []⟩, ⟨"InvalidScheduleParams", [], 4, []⟩], []⟩,
   ⟨[], [], .sequence 474, []⟩,
   ⟨["Option"], [("T", (some 475))], .variant [⟨"None", [], 0, []⟩, ⟨"Some", [⟨none, 475, none, []⟩], 1, []⟩], []⟩,
   ⟨["pallet_scheduler", "ScheduledV2"], [("Call", (some 267)), ("BlockNumber", (some 4)), ("PalletsOrigin", (some 476)), ("AccountId", (some 0))], .composite [⟨(some "maybe_id"), 55, (some "Option<Vec<u8>>"), []⟩, ⟨(some "priority"), 2, (some "schedule::Priority"), []⟩, ⟨(some "call"), 267, (some "Call"), []⟩, ⟨(some "maybe_periodic"), 312, (some "Option<schedule::Period<BlockNumber>>"), []⟩, ⟨(some "origin"), 476, (some "PalletsOrigin"), []⟩], []⟩,
   ⟨["westend_runtime", "OriginCaller"], [], .variant [⟨"system", [⟨none, 477, (some "frame_system::Origin<Runtime>"), []⟩], 0, []⟩, ⟨"ParachainsOrigin", [⟨none, 478, (some "parachains_origin::Origin"), []⟩], 41, []⟩, ⟨"XcmPallet", [⟨none, 479, (some "pallet_xcm::Origin"), []⟩], 99, []⟩, ⟨"Void", [⟨none, 480, (some "self::sp_api_hidden_includes_construct_runtime::hidden_include::Void"), []⟩], 3, []⟩], []⟩,
   ⟨["frame_system", "RawOrigin"], [("AccountId", (some 0))], .variant [⟨"Root", [], 0, []⟩, ⟨"Signed", [⟨none, 0, (some "AccountId"), []⟩], 1, []⟩, ⟨"None", [], 2, []⟩], []⟩,
   ⟨["polkadot_runtime_parachains", "origin", "pallet", "Origin"], [], .variant [⟨"Parachain", [⟨none, 72, (some "ParaId"), []⟩], 0, []⟩], []⟩,
   ⟨["pallet_xcm", "pallet", "Origin"], [], .variant [⟨"Xcm", [⟨none, 92, (some "MultiLocation"), []⟩], 0, []⟩, ⟨"Response", [⟨none, 92, (some "MultiLocation"), []⟩], 1, []⟩], []⟩]

/-- Types 480 to 511 of `for_tests/westend9111`. -/
def types15 : List Typ :=
  [⟨["sp_core", "Void"], [], .variant [], []⟩,
   ⟨["pallet_scheduler", "Releases"], [], .variant [⟨"V1", [], 0, []⟩, ⟨"V2", [], 1, []⟩], []⟩,
   ⟨["pallet_scheduler", "pallet", "Error"], [("T", none)], .variant [⟨"FailedToSchedule", [], 0, []⟩, ⟨"NotFound", [], 1, []⟩, ⟨"TargetBlockNumberInPast", [], 2, []⟩, ⟨"RescheduleNoChange", [], 3, []⟩], []⟩,
   ⟨["pallet_sudo", "pallet", "Error"], [("T", none)], .variant [⟨"RequireSudo", [], 0, []⟩], []⟩,
   ⟨[], [], .tuple [485, 6], []⟩,
   ⟨["frame_support", "storage", "bounded_vec", "BoundedVec"], [("T", (some 486)), ("S", none)], .composite [⟨none, 487, (some "Vec<T>"), []⟩], []⟩,
   ⟨["pallet_proxy", "ProxyDefinition"], [("AccountId", (some 0)), ("ProxyType", (some 60)), ("BlockNumber", (some 4))], .composite [⟨(some "delegate"), 0, (some "AccountId"), []⟩, ⟨(some "proxy_type"), 60, (some "ProxyType"), []⟩, ⟨(some "delay"), 4, (some "BlockNumber"), []⟩], []⟩,
   ⟨[], [], .sequence 486, []⟩,
   ⟨[], [], .tuple [489, 6], []⟩,
   ⟨["frame_support", "storage", "bounded_vec", "BoundedVec"], [("T", (some 490)), ("S", none)], .composite [⟨none, 491, (some "Vec<T>"), []⟩], []⟩,
   ⟨["pallet_proxy", "Announcement"], [("AccountId", (some 0)), ("Hash", (some 9)), ("BlockNumber", (some 4))], .composite [⟨(some "real"), 0, (some "AccountId"), []⟩, ⟨(some "call_hash"), 9, (some "Hash"), []⟩, ⟨(some "height"), 4, (some "BlockNumber"), []⟩], []⟩,
   ⟨[], [], .sequence 490, []⟩,
   ⟨["pallet_proxy", "pallet", "Error"], [("T", none)], .variant [⟨"TooMany", [], 0, []⟩, ⟨"NotFound", [], 1, []⟩, ⟨"NotProxy", [], 2, []⟩, ⟨"Unproxyable", [], 3, []⟩, ⟨"Duplicate", [], 4, []⟩, ⟨"NoPermission", [], 5, []⟩, ⟨"Unannounced", [], 6, []⟩, ⟨"NoSelfProxy", [], 7, []⟩], []⟩,
   ⟨[], [], .tuple [0, 1], []⟩,
   ⟨["pallet_multisig", "Multisig"], [("BlockNumber", (some 4)), ("Balance", (some 6)), ("AccountId", (some 0))], .composite [⟨(some "when"), 63, (some "Timepoint<BlockNumber>"), []⟩, ⟨(some "deposit"), 6, (some "Balance"), []⟩, ⟨(some "depositor"), 0, (some "AccountId"), []⟩, ⟨(some "approvals"), 193, (some "Vec<AccountId>"), []⟩], []⟩,
   ⟨[], [], .tuple [10, 0, 6], []⟩,
   ⟨["pallet_multisig", "pallet", "Error"], [("T", none)], .variant [⟨"MinimumThreshold", [], 0, []⟩, ⟨"AlreadyApproved", [], 1, []⟩, ⟨"NoApprovalsNeeded", [], 2, []⟩, ⟨"TooFewSignatories", [], 3, []⟩, ⟨"TooManySignatories", [], 4, []⟩, ⟨"SignatoriesOutOfOrder", [], 5, []⟩, ⟨"SenderInSignatories", [], 6, []⟩, ⟨"NotFound", [], 7, []⟩, ⟨"NotOwner", [], 8, []⟩, ⟨"NoTimepoint", [], 9, []⟩, ⟨"WrongTimepoint", [], 10, []⟩, ⟨"UnexpectedTimepoint", [], 11, []⟩, ⟨"MaxWeightTooLow", [], 12, []⟩, ⟨"AlreadyStored", [], 13, []⟩], []⟩,
   ⟨["pallet_election_provider_multi_phase", "Phase"], [("Bn", (some 4))], .variant [⟨"Off", [], 0, []⟩, ⟨"Signed", [], 1, []⟩, ⟨"Unsigned", [⟨none, 498, (some "(bool, Bn)"), []⟩], 2, []⟩, ⟨"Emergency", [], 3, []⟩], []⟩,
   ⟨[], [], .tuple [66, 4], []⟩,
   ⟨["pallet_election_provider_multi_phase", "ReadySolution"], [("A", (some 0))], .composite [⟨(some "supports"), 374, (some "Supports<A>"), []⟩, ⟨(some "score"), 371, (some "ElectionScore"), []⟩, ⟨(some "compute"), 65, (some "ElectionCompute"), []⟩], []⟩,
   ⟨["pallet_election_provider_multi_phase", "RoundSnapshot"], [("A", (some 0))], .composite [⟨(some "voters"), 501, (some "Vec<(A, VoteWeight, Vec<A>)>"), []⟩, ⟨(some "targets"), 193, (some "Vec<A>"), []⟩], []⟩,
   ⟨[], [], .sequence 502, []⟩,
   ⟨[], [], .tuple [0, 8, 193], []⟩,
   ⟨["frame_support", "storage", "bounded_btree_map", "BoundedBTreeMap"], [("K", (some 371)), ("V", (some 4)), ("S", none)], .composite [⟨none, 504, (some "BTreeMap<K, V>"), []⟩], []⟩,
   ⟨["BTreeMap"], [("K", (some 371)), ("V", (some 4))], .composite [⟨none, 505, none, []⟩], []⟩,
   ⟨[], [], .sequence 506, []⟩,
   ⟨[], [], .tuple [371, 4], []⟩,
   ⟨["pallet_election_provider_multi_phase", "signed", "SignedSubmission"], [("AccountId", (some 0)), ("Balance", (some 6)), ("Solution", (some 320))], .composite [⟨(some "who"), 0, (some "AccountId"), []⟩, ⟨(some "deposit"), 6, (some "Balance"), []⟩, ⟨(some "raw_solution"), 319, (some "RawSolution<Solution>"), []⟩, ⟨(some "reward"), 6, (some "Balance"), []⟩], []⟩,
   ⟨["pallet_election_provider_multi_phase", "pallet", "Error"], [("T", none)], .variant [⟨"PreDispatchEarlySubmission", [], 0, []⟩, ⟨"PreDispatchWrongWinnerCount", [], 1, []⟩, ⟨"PreDispatchWeakSubmission", [], 2, []⟩, ⟨"SignedQueueFull", [], 3, []⟩, ⟨"SignedCannotPayDeposit", [], 4, []⟩, ⟨"SignedInvalidWitness", [], 5, []⟩, ⟨"SignedTooMuchWeight", [], 6, []⟩, ⟨"OcwCallWrongEra", [], 7, []⟩, ⟨"MissingSnapshotMetadata", [], 8, []⟩, ⟨"InvalidSubmissionIndex", [], 9, []⟩, ⟨"CallNotAllowed", [], 10, []⟩], []⟩,
   ⟨["pallet_bags_list", "list", "Node"], [("T", none)], .composite [⟨(some "id"), 0, (some "T::AccountId"), []⟩, ⟨(some "prev"), 189, (some "Option<T::AccountId>"), []⟩, ⟨(some "next"), 189, (some "Option<T::AccountId>"), []⟩, ⟨(some "bag_upper"), 8, (some "VoteWeight"), []⟩], []⟩,
   ⟨["pallet_bags_list", "list", "Bag"], [("T", none)], .composite [⟨(some "head"), 189, (some "Option<T::AccountId>"), []⟩, ⟨(some "tail"), 189, (some "Option<T::AccountId>"), []⟩], []⟩,
   ⟨[], [], .sequence 8, []⟩]

/-- Types 512 to 543 of `for_tests/westend9111`. -/
def types16 : List Typ :=
  [⟨["polkadot_runtime_parachains", "configuration", "HostConfiguration"], [("BlockNumber", (some 4))], .composite [⟨(some "max_code_size"), 4, (some "u32"), []⟩, ⟨(some "max_head_data_size"), 4, (some "u32"), []⟩, ⟨(some "max_upward_queue_count"), 4, (some "u32"), []⟩, ⟨(some "max_upward_queue_size"), 4, (some "u32"), []⟩, ⟨(some "max_upward_message_size"), 4, (some "u32"), []⟩, ⟨(some "max_upward_message_num_per_candidate"), 4, (some "u32"), []⟩, ⟨(some "hrmp_max_message_num_per_candidate"), 4, (some "u32"), []⟩, ⟨(some "validation_upgrade_frequency"), 4, (some "BlockNumber"), []⟩, ⟨(some "validation_upgrade_delay"), 4, (some "BlockNumber"), []⟩, ⟨(some "max_pov_size"), 4, (some "u32"), []⟩, ⟨(some "max_downward_message_size"), 4, (some "u32"), []⟩, ⟨(some "ump_service_total_weight"), 8, (some "Weight"), []⟩, ⟨(some "hrmp_max_parachain_outbound_channels"), 4, (some "u32"), []⟩, ⟨(some "hrmp_max_parathread_outbound_channels"), 4, (some "u32"), []⟩, ⟨(some "hrmp_sender_deposit"), 6, (some "Balance"), []⟩, ⟨(some "hrmp_recipient_deposit"), 6, (some "Balance"), []⟩, ⟨(some "hrmp_channel_max_capacity"), 4, (some "u32"), []⟩, ⟨(some "hrmp_channel_max_total_size"), 4, (some "u32"), []⟩, ⟨(some "hrmp_max_parachain_inbound_channels"), 4, (some "u32"), []⟩, ⟨(some "hrmp_max_parathread_inbound_channels"), 4, (some "u32"), []⟩, ⟨(some "hrmp_channel_max_message_size"), 4, (some "u32"), []⟩, ⟨(some "code_retention_period"), 4, (some "BlockNumber"), []⟩, ⟨(some "parathread_cores"), 4, (some "u32"), []⟩, ⟨(some "parathread_retries"), 4, (some "u32"), []⟩, ⟨(some "group_rotation_frequency"), 4, (some "BlockNumber"), []⟩, ⟨(some "chain_availability_period"), 4, (some "BlockNumber"), []⟩, ⟨(some "thread_availability_period"), 4, (some "BlockNumber"), []⟩, ⟨(some "scheduling_lookahead"), 4, (some "u32"), []⟩, ⟨(some "max_validators_per_core"), 220, (some "Option<u32>"), []⟩, ⟨(some "max_validators"), 220, (some "Option<u32>"), []⟩, ⟨(some "dispute_period"), 4, (some "SessionIndex"), []⟩, ⟨(some "dispute_post_conclusion_acceptance_period"), 4, (some "BlockNumber"), []⟩, ⟨(some "dispute_max_spam_slots"), 4, (some "u32"), []⟩, ⟨(some "dispute_conclusion_by_time_out_period"), 4, (some "BlockNumber"), []⟩, ⟨(some "no_show_slots"), 4, (some "u32"), []⟩, ⟨(some "n_delay_tranches"), 4, (some "u32"), []⟩, ⟨(some "zeroth_delay_tranche_width"), 4, (some "u32"), []⟩, ⟨(some "needed_approvals"), 4, (some "u32"), []⟩, ⟨(some "relay_vrf_modulo_samples"), 4, (some "u32"), []⟩, ⟨(some "ump_max_individual_weight"), 8, (some "Weight"), []⟩], []⟩,
   ⟨["polkadot_runtime_parachains", "configuration", "pallet", "Error"], [("T", none)], .variant [⟨"InvalidNewValue", [], 0, []⟩], []⟩,
   ⟨[], [], .sequence 388, []⟩,
   ⟨[], [], .sequence 228, []⟩,
   ⟨["polkadot_runtime_parachains", "inclusion", "AvailabilityBitfieldRecord"], [("N", (some 4))], .composite [⟨(some "bitfield"), 385, (some "AvailabilityBitfield"), []⟩, ⟨(some "submitted_at"), 4, (some "N"), []⟩], []⟩,
   ⟨["polkadot_runtime_parachains", "inclusion", "CandidatePendingAvailability"], [("H", (some 9)), ("N", (some 4))], .composite [⟨(some "core"), 79, (some "CoreIndex"), []⟩, ⟨(some "hash"), 402, (some "CandidateHash"), []⟩, ⟨(some "descriptor"), 71, (some "CandidateDescriptor<H>"), []⟩, ⟨(some "availability_votes"), 386, (some "BitVec<BitOrderLsb0, u8>"), []⟩, ⟨(some "backers"), 386, (some "BitVec<BitOrderLsb0, u8>"), []⟩, ⟨(some "relay_parent_number"), 4, (some "N"), []⟩, ⟨(some "backed_in_number"), 4, (some "N"), []⟩, ⟨(some "backing_group"), 80, (some "GroupIndex"), []⟩], []⟩,
   ⟨["polkadot_runtime_parachains", "inclusion", "pallet", "Error"], [("T", none)], .variant [⟨"WrongBitfieldSize", [], 0, []⟩, ⟨"BitfieldDuplicateOrUnordered", [], 1, []⟩, ⟨"ValidatorIndexOutOfBounds", [], 2, []⟩, ⟨"InvalidBitfieldSignature", [], 3, []⟩, ⟨"UnscheduledCandidate", [], 4, []⟩, ⟨"CandidateScheduledBeforeParaFree", [], 5, []⟩, ⟨"WrongCollator", [], 6, []⟩, ⟨"ScheduledOutOfOrder", [], 7, []⟩, ⟨"HeadDataTooLarge", [], 8, []⟩, ⟨"PrematureCodeUpgrade", [], 9, []⟩, ⟨"NewCodeTooLarge", [], 10, []⟩, ⟨"CandidateNotInParentContext", [], 11, []⟩, ⟨"UnoccupiedBitInBitfield", [], 12, []⟩, ⟨"InvalidGroupIndex", [], 13, []⟩, ⟨"InsufficientBacking", [], 14, []⟩, ⟨"InvalidBacking", [], 15, []⟩, ⟨"NotCollatorSigned", [], 16, []⟩, ⟨"ValidationDataHashMismatch", [], 17, []⟩, ⟨"InternalError", [], 18, []⟩, ⟨"IncorrectDownwardMessageHandling", [], 19, []⟩, ⟨"InvalidUpwardMessages", [], 20, []⟩, ⟨"HrmpWatermarkMishandling", [], 21, []⟩, ⟨"InvalidOutboundHrmp", [], 22, []⟩, ⟨"InvalidValidationCodeHash", [], 23, []⟩, ⟨"ParaHeadMismatch", [], 24, []⟩], []⟩,
   ⟨["polkadot_runtime_parachains", "paras_inherent", "pallet", "Error"], [("T", none)], .variant [⟨"TooManyInclusionInherents", [], 0, []⟩, ⟨"InvalidParentHeader", [], 1, []⟩, ⟨"CandidateConcludedInvalid", [], 2, []⟩], []⟩,
   ⟨[], [], .sequence 514, []⟩,
   ⟨["polkadot_runtime_parachains", "scheduler", "ParathreadClaimQueue"], [], .composite [⟨(some "queue"), 522, (some "Vec<QueuedParathread>"), []⟩, ⟨(some "next_core_offset"), 4, (some "u32"), []⟩], []⟩,
   ⟨[], [], .sequence 523, []⟩,
   ⟨["polkadot_runtime_parachains", "scheduler", "QueuedParathread"], [], .composite [⟨(some "claim"), 524, (some "ParathreadEntry"), []⟩, ⟨(some "core_offset"), 4, (some "u32"), []⟩], []⟩,
   ⟨["polkadot_primitives", "v1", "ParathreadEntry"], [], .composite [⟨(some "claim"), 525, (some "ParathreadClaim"), []⟩, ⟨(some "retries"), 4, (some "u32"), []⟩], []⟩,
   ⟨["polkadot_primitives", "v1", "ParathreadClaim"], [], .composite [⟨none, 72, (some "Id"), []⟩, ⟨none, 73, (some "CollatorId"), []⟩], []⟩,
   ⟨[], [], .sequence 527, []⟩,
   ⟨["Option"], [("T", (some 528))], .variant [⟨"None", [], 0, []⟩, ⟨"Some", [⟨none, 528, none, []⟩], 1, []⟩], []⟩,
   ⟨["polkadot_primitives", "v1", "CoreOccupied"], [], .variant [⟨"Parathread", [⟨none, 524, (some "ParathreadEntry"), []⟩], 0, []⟩, ⟨"Parachain", [], 1, []⟩], []⟩,
   ⟨[], [], .sequence 72, []⟩,
   ⟨[], [], .sequence 531, []⟩,
   ⟨["polkadot_runtime_parachains", "scheduler", "CoreAssignment"], [], .composite [⟨(some "core"), 79, (some "CoreIndex"), []⟩, ⟨(some "para_id"), 72, (some "ParaId"), []⟩, ⟨(some "kind"), 532, (some "AssignmentKind"), []⟩, ⟨(some "group_idx"), 80, (some "GroupIndex"), []⟩], []⟩,
   ⟨["polkadot_runtime_parachains", "scheduler", "AssignmentKind"], [], .variant [⟨"Parachain", [], 0, []⟩, ⟨"Parathread", [⟨none, 73, (some "CollatorId"), []⟩, ⟨none, 4, (some "u32"), []⟩], 1, []⟩], []⟩,
   ⟨["polkadot_runtime_parachains", "paras", "ParaLifecycle"], [], .variant [⟨"Onboarding", [], 0, []⟩, ⟨"Parathread", [], 1, []⟩, ⟨"Parachain", [], 2, []⟩, ⟨"UpgradingParathread", [], 3, []⟩, ⟨"DowngradingParachain", [], 4, []⟩, ⟨"OffboardingParathread", [], 5, []⟩, ⟨"OffboardingParachain", [], 6, []⟩], []⟩,
   ⟨[], [], .tuple [72, 4], []⟩,
   ⟨["polkadot_runtime_parachains", "paras", "ParaPastCodeMeta"], [("N", (some 4))], .composite [⟨(some "upgrade_times"), 536, (some "Vec<ReplacementTimes<N>>"), []⟩, ⟨(some "last_pruned"), 220, (some "Option<N>"), []⟩], []⟩,
   ⟨[], [], .sequence 537, []⟩,
   ⟨["polkadot_runtime_parachains", "paras", "ReplacementTimes"], [("N", (some 4))], .composite [⟨(some "expected_at"), 4, (some "N"), []⟩, ⟨(some "activated_at"), 4, (some "N"), []⟩], []⟩,
   ⟨[], [], .sequence 534, []⟩,
   ⟨["polkadot_primitives", "v1", "UpgradeGoAhead"], [], .variant [⟨"Abort", [], 0, []⟩, ⟨"GoAhead", [], 1, []⟩], []⟩,
   ⟨["polkadot_primitives", "v1", "UpgradeRestriction"], [], .variant [⟨"Present", [], 0, []⟩], []⟩,
   ⟨["polkadot_runtime_parachains", "paras", "pallet", "Error"], [("T", none)], .variant [⟨"NotRegistered", [], 0, []⟩, ⟨"CannotOnboard", [], 1, []⟩, ⟨"CannotOffboard", [], 2, []⟩, ⟨"CannotUpgrade", [], 3, []⟩, ⟨"CannotDowngrade", [], 4, []⟩], []⟩,
   ⟨[], [], .sequence 543, []⟩,
   ⟨["polkadot_runtime_parachains", "initializer", "BufferedSessionChange"], [], .composite [⟨(some "validators"), 515, (some "Vec<ValidatorId>"), []⟩, ⟨(some "queued"), 515, (some "Vec<ValidatorId>"), []⟩, ⟨(some "session_index"), 4, (some "SessionIndex"), []⟩], []⟩]

/-- Types 544 to 575 of `for_tests/westend9111`. -/
def types17 : List Typ :=
  [⟨[], [], .sequence 545, []⟩,
   ⟨["polkadot_core_primitives", "InboundDownwardMessage"], [("BlockNumber", (some 4))], .composite [⟨(some "sent_at"), 4, (some "BlockNumber"), []⟩, ⟨(some "msg"), 10, (some "DownwardMessage"), []⟩], []⟩,
   ⟨[], [], .tuple [72, 10], []⟩,
   ⟨["polkadot_runtime_parachains", "ump", "pallet", "Error"], [("T", none)], .variant [⟨"UnknownMessageIndex", [], 0, []⟩, ⟨"WeightOverLimit", [], 1, []⟩], []⟩,
   ⟨["polkadot_runtime_parachains", "hrmp", "HrmpOpenChannelRequest"], [], .composite [⟨(some "confirmed"), 66, (some "bool"), []⟩, ⟨(some "_age"), 4, (some "SessionIndex"), []⟩, ⟨(some "sender_deposit"), 6, (some "Balance"), []⟩, ⟨(some "max_message_size"), 4, (some "u32"), []⟩, ⟨(some "max_capacity"), 4, (some "u32"), []⟩, ⟨(some "max_total_size"), 4, (some "u32"), []⟩], []⟩,
   ⟨[], [], .sequence 86, []⟩,
   ⟨["polkadot_runtime_parachains", "hrmp", "HrmpChannel"], [], .composite [⟨(some "max_capacity"), 4, (some "u32"), []⟩, ⟨(some "max_total_size"), 4, (some "u32"), []⟩, ⟨(some "max_message_size"), 4, (some "u32"), []⟩, ⟨(some "msg_count"), 4, (some "u32"), []⟩, ⟨(some "total_size"), 4, (some "u32"), []⟩, ⟨(some "mqc_head"), 551, (some "Option<Hash>"), []⟩, ⟨(some "sender_deposit"), 6, (some "Balance"), []⟩, ⟨(some "recipient_deposit"), 6, (some "Balance"), []⟩], []⟩,
   ⟨["Option"], [("T", (some 9))], .variant [⟨"None", [], 0, []⟩, ⟨"Some", [⟨none, 9, none, []⟩], 1, []⟩], []⟩,
   ⟨[], [], .sequence 553, []⟩,
   ⟨["polkadot_core_primitives", "InboundHrmpMessage"], [("BlockNumber", (some 4))], .composite [⟨(some "sent_at"), 4, (some "BlockNumber"), []⟩, ⟨(some "data"), 10, (some "sp_std::vec::Vec<u8>"), []⟩], []⟩,
   ⟨[], [], .sequence 555, []⟩,
   ⟨[], [], .tuple [4, 529], []⟩,
   ⟨["polkadot_runtime_parachains", "hrmp", "pallet", "Error"], [("T", none)], .variant [⟨"OpenHrmpChannelToSelf", [], 0, []⟩, ⟨"OpenHrmpChannelInvalidRecipient", [], 1, []⟩, ⟨"OpenHrmpChannelZeroCapacity", [], 2, []⟩, ⟨"OpenHrmpChannelCapacityExceedsLimit", [], 3, []⟩, ⟨"OpenHrmpChannelZeroMessageSize", [], 4, []⟩, ⟨"OpenHrmpChannelMessageSizeExceedsLimit", [], 5, []⟩, ⟨"OpenHrmpChannelAlreadyExists", [], 6, []⟩, ⟨"OpenHrmpChannelAlreadyRequested", [], 7, []⟩, ⟨"OpenHrmpChannelLimitExceeded", [], 8, []⟩, ⟨"AcceptHrmpChannelDoesntExist", [], 9, []⟩, ⟨"AcceptHrmpChannelAlreadyConfirmed", [], 10, []⟩, ⟨"AcceptHrmpChannelLimitExceeded", [], 11, []⟩, ⟨"CloseHrmpChannelUnauthorized", [], 12, []⟩, ⟨"CloseHrmpChannelDoesntExist", [], 13, []⟩, ⟨"CloseHrmpChannelAlreadyUnderway", [], 14, []⟩, ⟨"CancelHrmpOpenChannelUnauthorized", [], 15, []⟩, ⟨"OpenHrmpChannelDoesntExist", [], 16, []⟩, ⟨"OpenHrmpChannelAlreadyConfirmed", [], 17, []⟩], []⟩,
   ⟨[], [], .sequence 229, []⟩,
   ⟨["polkadot_primitives", "v1", "SessionInfo"], [], .composite [⟨(some "validators"), 515, (some "Vec<ValidatorId>"), []⟩, ⟨(some "discovery_keys"), 559, (some "Vec<AuthorityDiscoveryId>"), []⟩, ⟨(some "assignment_keys"), 557, (some "Vec<AssignmentId>"), []⟩, ⟨(some "validator_groups"), 520, (some "Vec<Vec<ValidatorIndex>>"), []⟩, ⟨(some "n_cores"), 4, (some "u32"), []⟩, ⟨(some "zeroth_delay_tranche_width"), 4, (some "u32"), []⟩, ⟨(some "relay_vrf_modulo_samples"), 4, (some "u32"), []⟩, ⟨(some "n_delay_tranches"), 4, (some "u32"), []⟩, ⟨(some "no_show_slots"), 4, (some "u32"), []⟩, ⟨(some "needed_approvals"), 4, (some "u32"), []⟩], []⟩,
   ⟨[], [], .sequence 230, []⟩,
   ⟨["polkadot_runtime_common", "paras_registrar", "ParaInfo"], [("Account", (some 0)), ("Balance", (some 6))], .composite [⟨(some "manager"), 0, (some "Account"), []⟩, ⟨(some "deposit"), 6, (some "Balance"), []⟩, ⟨(some "locked"), 66, (some "bool"), []⟩], []⟩,
   ⟨["polkadot_runtime_common", "paras_registrar", "pallet", "Error"], [("T", none)], .variant [⟨"NotRegistered", [], 0, []⟩, ⟨"AlreadyRegistered", [], 1, []⟩, ⟨"NotOwner", [], 2, []⟩, ⟨"CodeTooLarge", [], 3, []⟩, ⟨"HeadDataTooLarge", [], 4, []⟩, ⟨"NotParachain", [], 5, []⟩, ⟨"NotParathread", [], 6, []⟩, ⟨"CannotDeregister", [], 7, []⟩, ⟨"CannotDowngrade", [], 8, []⟩, ⟨"CannotUpgrade", [], 9, []⟩, ⟨"ParaLocked", [], 10, []⟩, ⟨"NotReserved", [], 11, []⟩], []⟩,
   ⟨[], [], .sequence 563, []⟩,
   ⟨["Option"], [("T", (some 212))], .variant [⟨"None", [], 0, []⟩, ⟨"Some", [⟨none, 212, none, []⟩], 1, []⟩], []⟩,
   ⟨["polkadot_runtime_common", "slots", "pallet", "Error"], [("T", none)], .variant [⟨"ParaNotOnboarding", [], 0, []⟩, ⟨"LeaseError", [], 1, []⟩], []⟩,
   ⟨["polkadot_runtime_common", "paras_sudo_wrapper", "pallet", "Error"], [("T", none)], .variant [⟨"ParaDoesntExist", [], 0, []⟩, ⟨"ParaAlreadyExists", [], 1, []⟩, ⟨"ExceedsMaxMessageSize", [], 2, []⟩, ⟨"CouldntCleanup", [], 3, []⟩, ⟨"NotParathread", [], 4, []⟩, ⟨"NotParachain", [], 5, []⟩, ⟨"CannotUpgrade", [], 6, []⟩, ⟨"CannotDowngrade", [], 7, []⟩], []⟩,
   ⟨[], [], .tuple [0, 72], []⟩,
   ⟨[], [], .array 36 568, []⟩,
   ⟨["Option"], [("T", (some 569))], .variant [⟨"None", [], 0, []⟩, ⟨"Some", [⟨none, 569, none, []⟩], 1, []⟩], []⟩,
   ⟨[], [], .tuple [0, 72, 6], []⟩,
   ⟨["polkadot_runtime_common", "auctions", "pallet", "Error"], [("T", none)], .variant [⟨"AuctionInProgress", [], 0, []⟩, ⟨"LeasePeriodInPast", [], 1, []⟩, ⟨"ParaNotRegistered", [], 2, []⟩, ⟨"NotCurrentAuction", [], 3, []⟩, ⟨"NotAuction", [], 4, []⟩, ⟨"AuctionEnded", [], 5, []⟩, ⟨"AlreadyLeasedOut", [], 6, []⟩], []⟩,
   ⟨["polkadot_runtime_common", "crowdloan", "FundInfo"], [("AccountId", (some 0)), ("Balance", (some 6)), ("BlockNumber", (some 4)), ("LeasePeriod", (some 4))], .composite [⟨(some "depositor"), 0, (some "AccountId"), []⟩, ⟨(some "verifier"), 431, (some "Option<MultiSigner>"), []⟩, ⟨(some "deposit"), 6, (some "Balance"), []⟩, ⟨(some "raised"), 6, (some "Balance"), []⟩, ⟨(some "end"), 4, (some "BlockNumber"), []⟩, ⟨(some "cap"), 6, (some "Balance"), []⟩, ⟨(some "last_contribution"), 572, (some "LastContribution<BlockNumber>"), []⟩, ⟨(some "first_period"), 4, (some "LeasePeriod"), []⟩, ⟨(some "last_period"), 4, (some "LeasePeriod"), []⟩, ⟨(some "trie_index"), 4, (some "TrieIndex"), []⟩], []⟩,
   ⟨["polkadot_runtime_common", "crowdloan", "LastContribution"], [("BlockNumber", (some 4))], .variant [⟨"Never", [], 0, []⟩, ⟨"PreEnding", [⟨none, 4, (some "u32"), []⟩], 1, []⟩, ⟨"Ending", [⟨none, 4, (some "BlockNumber"), []⟩], 2, []⟩], []⟩,
   ⟨["frame_support", "PalletId"], [], .composite [⟨none, 110, (some "[u8; 8]"), []⟩], []⟩,
   ⟨["polkadot_runtime_common", "crowdloan", "pallet", "Error"], [("T", none)], .variant [⟨"FirstPeriodInPast", [], 0, []⟩, ⟨"FirstPeriodTooFarInFuture", [], 1, []⟩, ⟨"LastPeriodBeforeFirstPeriod", [], 2, []⟩, ⟨"LastPeriodTooFarInFuture", [], 3, []⟩, ⟨"CannotEndInPast", [], 4, []⟩, ⟨"EndTooFarInFuture", [], 5, []⟩, ⟨"Overflow", [], 6, []⟩, ⟨"ContributionTooSmall", [], 7, []⟩, ⟨"InvalidParaId", [], 8, []⟩, ⟨"CapExceeded", [], 9, []⟩, ⟨"ContributionPeriodOver", [], 10, []⟩, ⟨"InvalidOrigin", [], 11, []⟩, ⟨"NotParachain", [], 12, []⟩, ⟨"LeaseActive", [], 13, []⟩, ⟨"BidOrLeaseActive", [], 14, []⟩, ⟨"FundNotEnded", [], 15, []⟩, ⟨"NoContributions", [], 16, []⟩, ⟨"NotReadyToDissolve", [], 17, []⟩, ⟨"InvalidSignature", [], 18, []⟩, ⟨"MemoTooLarge", [], 19, []⟩, ⟨"AlreadyInNewRaise", [], 20, []⟩, ⟨"VrfDelayInProgress", [], 21, []⟩, ⟨"NoLeasePeriod", [], 22, []⟩], []⟩,
   ⟨["pallet_xcm", "pallet", "QueryStatus"], [("BlockNumber", (some 4))], .variant [⟨"Pending", [⟨(some "responder"), 126, (some "VersionedMultiLocation"), []⟩, ⟨(some "maybe_notify"), 576, (some "Option<(u8, u8)>"), []⟩, ⟨(some "timeout"), 4, (some "BlockNumber"), []⟩], 0, []⟩, ⟨"VersionNotifier", [⟨(some "origin"), 126, (some "VersionedMultiLocation"), []⟩, ⟨(some "is_active"), 66, (some "bool"), []⟩], 1, []⟩, ⟨"Ready", [⟨(some "response"), 578, (some "VersionedResponse"), []⟩, ⟨(some "at"), 4, (some "BlockNumber"), []⟩], 2, []⟩], []⟩]

/-- Types 576 to 596 of `for_tests/westend9111`. -/
def types18 : List Typ :=
  [⟨["Option"], [("T", (some 577))], .variant [⟨"None", [], 0, []⟩, ⟨"Some", [⟨none, 577, none, []⟩], 1, []⟩], []⟩,
   ⟨[], [], .tuple [2, 2], []⟩,
   ⟨["xcm", "VersionedResponse"], [], .variant [⟨"V0", [⟨none, 422, (some "v0::Response"), []⟩], 0, []⟩, ⟨"V1", [⟨none, 427, (some "v1::Response"), []⟩], 1, []⟩, ⟨"V2", [⟨none, 111, (some "v2::Response"), []⟩], 2, []⟩], []⟩,
   ⟨[], [], .tuple [4, 126], []⟩,
   ⟨[], [], .tuple [8, 8, 4], []⟩,
   ⟨["frame_support", "storage", "bounded_vec", "BoundedVec"], [("T", (some 582)), ("S", none)], .composite [⟨none, 583, (some "Vec<T>"), []⟩], []⟩,
   ⟨[], [], .tuple [126, 4], []⟩,
   ⟨[], [], .sequence 582, []⟩,
   ⟨["pallet_xcm", "pallet", "VersionMigrationStage"], [], .variant [⟨"MigrateSupportedVersion", [], 0, []⟩, ⟨"MigrateVersionNotifiers", [], 1, []⟩, ⟨"NotifyCurrentTargets", [⟨none, 55, (some "Option<Vec<u8>>"), []⟩], 2, []⟩, ⟨"MigrateAndNotifyOldTargets", [], 3, []⟩], []⟩,
   ⟨["pallet_xcm", "pallet", "Error"], [("T", none)], .variant [⟨"Unreachable", [], 0, []⟩, ⟨"SendFailure", [], 1, []⟩, ⟨"Filtered", [], 2, []⟩, ⟨"UnweighableMessage", [], 3, []⟩, ⟨"DestinationNotInvertible", [], 4, []⟩, ⟨"Empty", [], 5, []⟩, ⟨"CannotReanchor", [], 6, []⟩, ⟨"TooManyAssets", [], 7, []⟩, ⟨"InvalidOrigin", [], 8, []⟩, ⟨"BadVersion", [], 9, []⟩, ⟨"BadLocation", [], 10, []⟩, ⟨"NoSubscription", [], 11, []⟩, ⟨"AlreadySubscribed", [], 12, []⟩], []⟩,
   ⟨["sp_runtime", "generic", "unchecked_extrinsic", "UncheckedExtrinsic"], [("Address", (some 180)), ("Call", (some 267)), ("Signature", (some 436)), ("Extra", (some 587))], .composite [⟨none, 10, none, []⟩], []⟩,
   ⟨[], [], .tuple [588, 589, 590, 591, 593, 594, 595], []⟩,
   ⟨["frame_system", "extensions", "check_spec_version", "CheckSpecVersion"], [("T", none)], .composite [], []⟩,
   ⟨["frame_system", "extensions", "check_tx_version", "CheckTxVersion"], [("T", none)], .composite [], []⟩,
   ⟨["frame_system", "extensions", "check_genesis", "CheckGenesis"], [("T", none)], .composite [], []⟩,
   ⟨["frame_system", "extensions", "check_mortality", "CheckMortality"], [("T", none)], .composite [⟨none, 592, (some "Era"), []⟩], []⟩,
   ⟨["sp_runtime", "generic", "era", "Era"], [], .variant [⟨"Immortal", [], 0, []⟩, ⟨"Mortal1", [⟨none, 2, none, []⟩], 1, []⟩, ⟨"Mortal2", [⟨none, 2, none, []⟩], 2, []⟩, ⟨"Mortal3", [⟨none, 2, none, []⟩], 3, []⟩, ⟨"Mortal4", [⟨none, 2, none, []⟩], 4, []⟩, ⟨"Mortal5", [⟨none, 2, none, []⟩], 5, []⟩, ⟨"Mortal6", [⟨none, 2, none, []⟩], 6, []⟩, ⟨"Mortal7", [⟨none, 2, none, []⟩], 7, []⟩, ⟨"Mortal8", [⟨none, 2, none, []⟩], 8, []⟩, ⟨"Mortal9", [⟨none, 2, none, []⟩], 9, []⟩, ⟨"Mortal10", [⟨none, 2, none, []⟩], 10, []⟩, ⟨"Mortal11", [⟨none, 2, none, []⟩], 11, []⟩, ⟨"Mortal12", [⟨none, 2, none, []⟩], 12, []⟩, ⟨"Mortal13", [⟨none, 2, none, []⟩], 13, []⟩, ⟨"Mortal14", [⟨none, 2, none, []⟩], 14, []⟩, ⟨"Mortal15", [⟨none, 2, none, []⟩], 15, []⟩, ⟨"Mortal16", [⟨none, 2, none, []⟩], 16, []⟩, ⟨"Mortal17", [⟨none, 2, none, []⟩], 17, []⟩, ⟨"Mortal18", [⟨none, 2, none, []⟩], 18, []⟩, ⟨"Mortal19", [⟨none, 2, none, []⟩], 19, []⟩, ⟨"Mortal20", [⟨none, 2, none, []⟩], 20, []⟩, ⟨"Mortal21", [⟨none, 2, none, []⟩], 21, []⟩, ⟨"Mortal22", [⟨none, 2, none, []⟩], 22, []⟩, ⟨"Mortal23", [⟨none, 2, none, []⟩], 23, []⟩, ⟨"Mortal24", [⟨none, 2, none, []⟩], 24, []⟩, ⟨"Mortal25", [⟨none, 2, none, []⟩], 25, []⟩, ⟨"Mortal26", [⟨none, 2, none, []⟩], 26, []⟩, ⟨"Mortal27", [⟨none, 2, none, []⟩], 27, []⟩, ⟨"Mortal28", [⟨none, 2, none, []⟩], 28, []⟩, ⟨"Mortal29", [⟨none, 2, none, []⟩], 29, []⟩, ⟨"Mortal30", [⟨none, 2, none, []⟩], 30, []⟩, ⟨"Mortal31", [⟨none, 2, none, []⟩], 31, []⟩, ⟨"Mortal32", [⟨none, 2, none, []⟩], 32, []⟩, ⟨"Mortal33", [⟨none, 2, none, []⟩], 33, []⟩, ⟨"Mortal34", [⟨none, 2, none, []⟩], 34, []⟩, ⟨"Mortal35", [⟨none, 2, none, []⟩], 35, []⟩, ⟨"Mortal36", [⟨none, 2, none, []⟩], 36, []⟩, ⟨"Mortal37", [⟨none, 2, none, []⟩], 37, []⟩, ⟨"Mortal38", [⟨none, 2, none, []⟩], 38, []⟩, ⟨"Mortal39", [⟨none, 2, none, []⟩], 39, []⟩, ⟨"Mortal40", [⟨none, 2, none, []⟩], 40, []⟩, ⟨"Mortal41", [⟨none, 2, none, []⟩], 41, []⟩, ⟨"Mortal42", [⟨none, 2, none, []⟩], 42, []⟩, ⟨"Mortal43", [⟨none, 2, none, []⟩], 43, []⟩, ⟨"Mortal44", [⟨none, 2, none, []⟩], 44, []⟩, ⟨"Mortal45", [⟨none, 2, none, []⟩], 45, []⟩, ⟨"Mortal46", [⟨none, 2, none, []⟩], 46, []⟩, ⟨"Mortal47", [⟨none, 2, none, []⟩], 47, []⟩, ⟨"Mortal48", [⟨none, 2, none, []⟩], 48, []⟩, ⟨"Mortal49", [⟨none, 2, none, []⟩], 49, []⟩, ⟨"Mortal50", [⟨none, 2, none, []⟩], 50, []⟩, ⟨"Mortal51", [⟨none, 2, none, []⟩], 51, []⟩, ⟨"Mortal52", [⟨none, 2, none, []⟩], 52, []⟩, ⟨"Mortal53", [⟨none, 2, none, []⟩], 53, []⟩, ⟨"Mortal54", [⟨none, 2, none, []⟩], 54, []⟩, ⟨"Mortal55", [⟨none, 2, none, []⟩], 55, []⟩, ⟨"Mortal56", [⟨none, 2, none, []⟩], 56, []⟩, ⟨"Mortal57", [⟨none, 2, none, []⟩], 57, []⟩, ⟨"Mortal58", [⟨none, 2, none, []⟩], 58, []⟩, ⟨"Mortal59", [⟨none, 2, none, []⟩], 59, []⟩, ⟨"Mortal60", [⟨none, 2, none, []⟩], 60, []⟩, ⟨"Mortal61", [⟨none, 2, none, []⟩], 61, []⟩, ⟨"Mortal62", [⟨none, 2, none, []⟩], 62, []⟩, ⟨"Mortal63", [⟨none, 2, none, []⟩], 63, []⟩, ⟨"Mortal64", [⟨none, 2, none, []⟩], 64, []⟩, ⟨"Mortal65", [⟨none, 2, none, []⟩], 65, []⟩, ⟨"Mortal66", [⟨none, 2, none, []⟩], 66, []⟩, ⟨"Mortal67", [⟨none, 2, none, []⟩], 67, []⟩, ⟨"Mortal68", [⟨none, 2, none, []⟩], 68, []⟩, ⟨"Mortal69", [⟨none, 2, none, []⟩], 69, []⟩, ⟨"Mortal70", [⟨none, 2, none, []⟩], 70, []⟩, ⟨"Mortal71", [⟨none, 2, none, []⟩], 71, []⟩, ⟨"Mortal72", [⟨none, 2, none, []⟩], 72, []⟩, ⟨"Mortal73", [⟨none, 2, none, []⟩], 73, []⟩, ⟨"Mortal74", [⟨none, 2, none, []⟩], 74, []⟩, ⟨"Mortal75", [⟨none, 2, none, []⟩], 75, []⟩, ⟨"Mortal76", [⟨none, 2, none, []⟩], 76, []⟩, ⟨"Mortal77", [⟨none, 2, none, []⟩], 77, []⟩, ⟨"Mortal78", [⟨none, 2, none, []⟩], 78, []⟩, ⟨"Mortal79", [⟨none, 2, none, []⟩], 79, []⟩, ⟨"Mortal80", [⟨none, 2, none, []⟩], 80, []⟩, ⟨"Mortal81", [⟨none, 2, none, []⟩], 81, []⟩, ⟨"Mortal82", [⟨none, 2, none, []⟩], 82, []⟩, ⟨"Mortal83", [⟨none, 2, none, []⟩], 83, []⟩, ⟨"Mortal84", [⟨none, 2, none, []⟩], 84, []⟩, ⟨"Mortal85", [⟨none, 2, none, []⟩], 85, []⟩, ⟨"Mortal86", [⟨none, 2, none, []⟩], 86, []⟩, ⟨"Mortal87", [⟨none, 2, none, []⟩], 87, []⟩, ⟨"Mortal88", [⟨none, 2, none, []⟩], 88, []⟩, ⟨"Mortal89", [⟨none, 2, none, []⟩], 89, []⟩, ⟨"Mortal90", [⟨none, 2, none, []⟩], 90, []⟩, ⟨"Mortal91", [⟨none, 2, none, []⟩], 91, []⟩, ⟨"Mortal92", [⟨none, 2, none, []⟩], 92, []⟩, ⟨"Mortal93", [⟨none, 2, none, []⟩], 93, []⟩, ⟨"Mortal94", [⟨none, 2, none, []⟩], 94, []⟩, ⟨"Mortal95", [⟨none, 2, none, []⟩], 95, []⟩, ⟨"Mortal96", [⟨none, 2, none, []⟩], 96, []⟩, ⟨"Mortal97", [⟨none, 2, none, []⟩], 97, []⟩, ⟨"Mortal98", [⟨none, 2, none, []⟩], 98, []⟩, ⟨"Mortal99", [⟨none, 2, none, []⟩], 99, []⟩, ⟨"Mortal100", [⟨none, 2, none, []⟩], 100, []⟩, ⟨"Mortal101", [⟨none, 2, none, []⟩], 101, []⟩, ⟨"Mortal102", [⟨none, 2, none, []⟩], 102, []⟩, ⟨"Mortal103", [⟨none, 2, none, []⟩], 103, []⟩, ⟨"Mortal104", [⟨none, 2, none, []⟩], 104, []⟩, ⟨"Mortal105", [⟨none, 2, none, []⟩], 105, []⟩, ⟨"Mortal106", [⟨none, 2, none, []⟩], 106, []⟩, ⟨"Mortal107", [⟨none, 2, none, []⟩], 107, []⟩, ⟨"Mortal108", [⟨none, 2, none, []⟩], 108, []⟩, ⟨"Mortal109", [⟨none, 2, none, []⟩], 109, []⟩, ⟨"Mortal110", [⟨none, 2, none, []⟩], 110, []⟩, ⟨"Mortal111", [⟨none, 2, none, []⟩], 111, []⟩, ⟨"Mortal112", [⟨none, 2, none, []⟩], 112, []⟩, ⟨"Mortal113", [⟨none, 2, none, []⟩], 113, []⟩, ⟨"Mortal114", [⟨none, 2, none, []⟩], 114, []⟩, ⟨"Mortal115", [⟨none, 2, none, []⟩], 115, []⟩, ⟨"Mortal116", [⟨none, 2, none, []⟩], 116, []⟩, ⟨"Mortal117", [⟨none, 2, none, []⟩], 117, []⟩, ⟨"Mortal118", [⟨none, 2, none, []⟩], 118, []⟩, ⟨"Mortal119", [⟨none, 2, none, []⟩], 119, []⟩, ⟨"Mortal120", [⟨none, 2, none, []⟩], 120, []⟩, ⟨"Mortal121", [⟨none, 2, none, []⟩], 121, []⟩, ⟨"Mortal122", [⟨none, 2, none, []⟩], 122, []⟩, ⟨"Mortal123", [⟨none, 2, none, []⟩], 123, []⟩, ⟨"Mortal124", [⟨none, 2, none, []⟩], 124, []⟩, ⟨"Mortal125", [⟨none, 2, none, []⟩], 125, []⟩, ⟨"Mortal126", [⟨none, 2, none, []⟩], 126, []⟩, ⟨"Mortal127", [⟨none, 2, none, []⟩], 127, []⟩, ⟨"Mortal128", [⟨none, 2, none, []⟩], 128, []⟩, ⟨"Mortal129", [⟨none, 2, none, []⟩], 129, []⟩, ⟨"Mortal130", [⟨none, 2, none, []⟩], 130, []⟩, ⟨"Mortal131", [⟨none, 2, none, []⟩], 131, []⟩, ⟨"Mortal132", [⟨none, 2, none, []⟩], 132, []⟩, ⟨"Mortal133", [⟨none, 2, none, []⟩], 133, []⟩, ⟨"Mortal134", [⟨none, 2, none, []⟩], 134, []⟩, ⟨"Mortal135", [⟨none, 2, none, []⟩], 135, []⟩, ⟨"Mortal136", [⟨none, 2, none, []⟩], 136, []⟩, ⟨"Mortal137", [⟨none, 2, none, []⟩], 137, []⟩, ⟨"Mortal138", [⟨none, 2, none, []⟩], 138, []⟩, ⟨"Mortal139", [⟨none, 2, none, []⟩], 139, []⟩, ⟨"Mortal140", [⟨none, 2, none, []⟩], 140, []⟩, ⟨"Mortal141", [⟨none, 2, none, []⟩], 141, []⟩, ⟨"Mortal142", [⟨none, 2, none, []⟩], 142, []⟩, ⟨"Mortal143", [⟨none, 2, none, []⟩], 143, []⟩, ⟨"Mortal144", [⟨none, 2, none, []⟩], 144, []⟩, ⟨"Mortal145", [⟨none, 2, none, []⟩], 145, []⟩, ⟨"Mortal146", [⟨none, 2, none, []⟩], 146, []⟩, ⟨"Mortal147", [⟨none, 2, none, []⟩], 147, []⟩, ⟨"Mortal148", [⟨none, 2, none, []⟩], 148, []⟩, ⟨"Mortal149", [⟨none, 2, none, []⟩], 149, []⟩, ⟨"Mortal150", [⟨none, 2, none, []⟩], 150, []⟩, ⟨"Mortal151", [⟨none, 2, none, []⟩], 151, []⟩, ⟨"Mortal152", [⟨none, 2, none, []⟩], 152, []⟩, ⟨"Mortal153", [⟨none, 2, none, []⟩], 153, []⟩, ⟨"Mortal154", [⟨none, 2, none, []⟩], 154, []⟩, ⟨"Mortal155", [⟨none, 2, none, []⟩], 155, []⟩, ⟨"Mortal156", [⟨none, 2, none, []⟩], 156, []⟩, ⟨"Mortal157", [⟨none, 2, none, []⟩], 157, []⟩, ⟨"Mortal158", [⟨none, 2, none, []⟩], 158, []⟩, ⟨"Mortal159", [⟨none, 2, none, []⟩], 159, []⟩, ⟨"Mortal160", [⟨none, 2, none, []⟩], 160, []⟩, ⟨"Mortal161", [⟨none, 2, none, []⟩], 161, []⟩, ⟨"Mortal162", [⟨none, 2, none, []⟩], 162, []⟩, ⟨"Mortal163", [⟨none, 2, none, []⟩], 163, []⟩, ⟨"Mortal164", [⟨none, 2, none, []⟩], 164, []⟩, ⟨"Mortal165", [⟨none, 2, none, []⟩], 165, []⟩, ⟨"Mortal166", [⟨none, 2, none, []⟩], 166, []⟩, ⟨"Mortal167", [⟨none, 2, none, []⟩], 167, []⟩, ⟨"Mortal168", [⟨none, 2, none, []⟩], 168, []⟩, ⟨"Mortal169", [⟨none, 2, none, []⟩], 169, []⟩, ⟨"Mortal170", [⟨none, 2, none, []⟩], 170, []⟩, ⟨"Mortal171", [⟨none, 2, none, []⟩], 171, []⟩, ⟨"Mortal172", [⟨none, 2, none, []⟩], 172, []⟩, ⟨"Mortal173", [⟨none, 2, none, []⟩], 173, []⟩, ⟨"Mortal174", [⟨none, 2, none, []⟩], 174, []⟩, ⟨"Mortal175", [⟨none, 2, none, []⟩], 175, []⟩, ⟨"Mortal176", [⟨none, 2, none, []⟩], 176, []⟩, ⟨"Mortal177", [⟨none, 2, none, []⟩], 177, []⟩, ⟨"Mortal178", [⟨none, 2, none, []⟩], 178, []⟩, ⟨"Mortal179", [⟨none, 2, none, []⟩], 179, []⟩, ⟨"Mortal180", [⟨none, 2, none, []⟩], 180, []⟩, ⟨"Mortal181", [⟨none, 2, none, []⟩], 181, []⟩, ⟨"Mortal182", [⟨none, 2, none, []⟩], 182, []⟩, ⟨"Mortal183", [⟨none, 2, none, []⟩], 183, []⟩, ⟨"Mortal184", [⟨none, 2, none, []⟩], 184, []⟩, ⟨"Mortal185", [⟨none, 2, none, []⟩], 185, []⟩, ⟨"Mortal186", [⟨none, 2, none, []⟩], 186, []⟩, ⟨"Mortal187", [⟨none, 2, none, []⟩], 187, []⟩, ⟨"Mortal188", [⟨none, 2, none, []⟩], 188, []⟩, ⟨"Mortal189", [⟨none, 2, none, []⟩], 189, []⟩, ⟨"Mortal190", [⟨none, 2, none, []⟩], 190, []⟩, ⟨"Mortal191", [⟨none, 2, none, []⟩], 191, []⟩, ⟨"Mortal192", [⟨none, 2, none, []⟩], 192, []⟩, ⟨"Mortal193", [⟨none, 2, none, []⟩], 193, []⟩, ⟨"Mortal194", [⟨none, 2, none, []⟩], 194, []⟩, ⟨"Mortal195", [⟨none, 2, none, []⟩], 195, []⟩, ⟨"Mortal196", [⟨none, 2, none, []⟩], 196, []⟩, ⟨"Mortal197", [⟨none, 2, none, []⟩], 197, []⟩, ⟨"Mortal198", [⟨none, 2, none, []⟩], 198, []⟩, ⟨"Mortal199", [⟨none, 2, none, []⟩], 199, []⟩, ⟨"Mortal200", [⟨none, 2, none, []⟩], 200, []⟩, ⟨"Mortal201", [⟨none, 2, none, []⟩], 201, []⟩, ⟨"Mortal202", [⟨none, 2, none, []⟩], 202, []⟩, ⟨"Mortal203", [⟨none, 2, none, []⟩], 203, []⟩, ⟨"Mortal204", [⟨none, 2, none, []⟩], 204, []⟩, ⟨"Mortal205", [⟨none, 2, none, []⟩], 205, []⟩, ⟨"Mortal206", [⟨none, 2, none, []⟩], 206, []⟩, ⟨"Mortal207", [⟨none, 2, none, []⟩], 207, []⟩, ⟨"Mortal208", [⟨none, 2, none, []⟩], 208, []⟩, ⟨"Mortal209", [⟨none, 2, none, []⟩], 209, []⟩, ⟨"Mortal210", [⟨none, 2, none, []⟩], 210, []⟩, ⟨"Mortal211", [⟨none, 2, none, []⟩], 211, []⟩, ⟨"Mortal212", [⟨none, 2, none, []⟩], 212, []⟩, ⟨"Mortal213", [⟨none, 2, none, []⟩], 213, []⟩, ⟨"Mortal214", [⟨none, 2, none, []⟩], 214, []⟩, ⟨"Mortal215", [⟨none, 2, none, []⟩], 215, []⟩, ⟨"Mortal216", [⟨none, 2, none, []⟩], 216, []⟩, ⟨"Mortal217", [⟨none, 2, none, []⟩], 217, []⟩, ⟨"Mortal218", [⟨none, 2, none, []⟩], 218, []⟩, ⟨"Mortal219", [⟨none, 2, none, []⟩], 219, []⟩, ⟨"Mortal220", [⟨none, 2, none, []⟩], 220, []⟩, ⟨"Mortal221", [⟨none, 2, none, []⟩], 221, []⟩, ⟨"Mortal222", [⟨none, 2, none, []⟩], 222, []⟩, ⟨"Mortal223", [⟨none, 2, none, []⟩], 223, []⟩, ⟨"Mortal224", [⟨none, 2, none, []⟩], 224, []⟩, ⟨"Mortal225", [⟨none, 2, none, []⟩], 225, []⟩, ⟨"Mortal226", [⟨none, 2, none, []⟩], 226, []⟩, ⟨"Mortal227", [⟨none, 2, none, []⟩], 227, []⟩, ⟨"Mortal228", [⟨none, 2, none, []⟩], 228, []⟩, ⟨"Mortal229", [⟨none, 2, none, []⟩], 229, []⟩, ⟨"Mortal230", [⟨none, 2, none, []⟩], 230, []⟩, ⟨"Mortal231", [⟨none, 2, none, []⟩], 231, []⟩, ⟨"Mortal232", [⟨none, 2, none, []⟩], 232, []⟩, ⟨"Mortal233", [⟨none, 2, none, []⟩], 233, []⟩, ⟨"Mortal234", [⟨none, 2, none, []⟩], 234, []⟩, ⟨"Mortal235", [⟨none, 2, none, []⟩], 235, []⟩, ⟨"Mortal236", [⟨none, 2, none, []⟩], 236, []⟩, ⟨"Mortal237", [⟨none, 2, none, []⟩], 237, []⟩, ⟨"Mortal238", [⟨none, 2, none, []⟩], 238, []⟩, ⟨"Mortal239", [⟨none, 2, none, []⟩], 239, []⟩, ⟨"Mortal240", [⟨none, 2, none, []⟩], 240, []⟩, ⟨"Mortal241", [⟨none, 2, none, []⟩], 241, []⟩, ⟨"Mortal242", [⟨none, 2, none, []⟩], 242, []⟩, ⟨"Mortal243", [⟨none, 2, none, []⟩], 243, []⟩, ⟨"Mortal244", [⟨none, 2, none, []⟩], 244, []⟩, ⟨"Mortal245", [⟨none, 2, none, []⟩], 245, []⟩, ⟨"Mortal246", [⟨none, 2, none, []⟩], 246, []⟩, ⟨"Mortal247", [⟨none, 2, none, []⟩], 247, []⟩, ⟨"Mortal248", [⟨none, 2, none, []⟩], 248, []⟩, ⟨"Mortal249", [⟨none, 2, none, []⟩], 249, []⟩, ⟨"Mortal250", [⟨none, 2, none, []⟩], 250, []⟩, ⟨"Mortal251", [⟨none, 2, none, []⟩], 251, []⟩, ⟨"Mortal252", [⟨none, 2, none, []⟩], 252, []⟩, ⟨"Mortal253", [⟨none, 2, none, []⟩], 253, []⟩, ⟨"Mortal254", [⟨none, 2, none, []⟩], 254, []⟩, ⟨"Mortal255", [⟨none, 2, none, []⟩], 255, []⟩], []⟩,
   ⟨["frame_system", "extensions", "check_nonce", "CheckNonce"], [("T", none)], .composite [⟨none, 95, (some "T::Index"), []⟩], []⟩,
   ⟨["frame_system", "extensions", "check_weight", "CheckWeight"], [("T", none)], .composite [], []⟩,
   ⟨["pallet_transaction_payment", "ChargeTransactionPayment"], [("T", none)], .composite [⟨none, 46, (some "BalanceOf<T>"), []⟩], []⟩,
   ⟨["westend_runtime", "Runtime"], [], .composite [], []⟩]

/-- The types of `for_tests/westend9111`. -/
def types : List Typ :=
  types0 ++ (types1 ++ (types2 ++ (types3 ++ (types4 ++ (types5 ++ (types6 ++ (types7 ++ (types8 ++ (types9 ++ (types10 ++ (types11 ++ (types12 ++ (types13 ++ (types14 ++ (types15 ++ (types16 ++ (types17 ++ (types18))))))))))))))))))

end Verif.Westend
