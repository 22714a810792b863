import Verif.Real.PolkadotTypes
/-! Generated by `tools/gen_polkadot.py` from `/repo/for_tests/polkadot1003003_v15` (documentation texts left out). -/
namespace Verif.Polkadot

/-- The pallets of `for_tests/polkadot1003003_v15` with their constants. -/
def pallets : List Pallet :=
  [⟨"System", [⟨"BlockWeights", 502, [7, 176, 189, 233, 54, 3, 0, 11, 0, 32, 74, 169, 209, 1, 19, 255, 255, 255, 255, 255, 255, 255, 255, 34, 45, 13, 30, 0, 1, 11, 184, 132, 92, 143, 88, 1, 19, 163, 112, 61, 10, 215, 163, 112, 189, 1, 11, 0, 152, 247, 62, 93, 1, 19, 255, 255, 255, 255, 255, 255, 255, 191, 1, 0, 0, 34, 45, 13, 30, 0, 1, 11, 184, 12, 175, 249, 204, 1, 19, 163, 112, 61, 10, 215, 163, 112, 253, 1, 11, 0, 32, 74, 169, 209, 1, 19, 255, 255, 255, 255, 255, 255, 255, 255, 1, 7, 0, 136, 82, 106, 116, 19, 0, 0, 0, 0, 0, 0, 0, 64, 34, 45, 13, 30, 0, 0, 0, 0]⟩, ⟨"BlockLength", 505, [0, 0, 60, 0, 0, 0, 80, 0, 0, 0, 80, 0]⟩, ⟨"BlockHashCount", 4, [0, 16, 0, 0]⟩, ⟨"DbWeight", 507, [56, 202, 56, 1, 0, 0, 0, 0, 152, 170, 249, 4, 0, 0, 0, 0]⟩, ⟨"Version", 508, [32, 112, 111, 108, 107, 97, 100, 111, 116, 60, 112, 97, 114, 105, 116, 121, 45, 112, 111, 108, 107, 97, 100, 111, 116, 0, 0, 0, 0, 251, 77, 15, 0, 0, 0, 0, 0, 92, 197, 31, 241, 250, 63, 93, 12, 202, 1, 0, 0, 0, 223, 106, 203, 104, 153, 7, 96, 155, 5, 0, 0, 0, 55, 227, 151, 252, 124, 145, 245, 228, 2, 0, 0, 0, 64, 254, 58, 212, 1, 248, 149, 154, 6, 0, 0, 0, 23, 166, 188, 13, 0, 98, 174, 179, 1, 0, 0, 0, 24, 239, 88, 163, 182, 123, 167, 112, 1, 0, 0, 0, 210, 188, 152, 151, 238, 208, 143, 21, 3, 0, 0, 0, 247, 139, 39, 139, 229, 63, 69, 76, 2, 0, 0, 0, 175, 44, 2, 151, 162, 62, 109, 61, 11, 0, 0, 0, 73, 234, 175, 27, 84, 138, 12, 176, 3, 0, 0, 0, 145, 213, 223, 24, 176, 210, 207, 88, 2, 0, 0, 0, 42, 94, 146, 70, 85, 57, 158, 96, 1, 0, 0, 0, 237, 153, 197, 172, 178, 94, 237, 245, 3, 0, 0, 0, 203, 202, 37, 227, 159, 20, 35, 135, 2, 0, 0, 0, 104, 122, 212, 74, 211, 127, 3, 194, 1, 0, 0, 0, 171, 60, 5, 114, 41, 31, 235, 139, 1, 0, 0, 0, 188, 157, 137, 144, 79, 91, 146, 63, 1, 0, 0, 0, 55, 200, 187, 19, 80, 169, 162, 168, 4, 0, 0, 0, 243, 255, 20, 213, 171, 82, 112, 89, 3, 0, 0, 0, 111, 245, 46, 232, 88, 230, 197, 189, 1, 0, 0, 0, 145, 177, 200, 177, 99, 40, 235, 146, 1, 0, 0, 0, 159, 251, 80, 90, 167, 56, 214, 156, 1, 0, 0, 0, 251, 197, 119, 185, 215, 71, 239, 214, 1, 0, 0, 0, 26, 0, 0, 0, 1]⟩, ⟨"SS58Prefix", 91, [0, 0]⟩]⟩,
   ⟨"Scheduler", [⟨"MaximumWeight", 10, [11, 0, 128, 110, 135, 116, 1, 19, 204, 204, 204, 204, 204, 204, 204, 204]⟩, ⟨"MaxScheduledPerBlock", 4, [50, 0, 0, 0]⟩]⟩,
   ⟨"Preimage", []⟩,
   ⟨"Babe", [⟨"EpochDuration", 12, [96, 9, 0, 0, 0, 0, 0, 0]⟩, ⟨"ExpectedBlockTime", 12, [112, 23, 0, 0, 0, 0, 0, 0]⟩, ⟨"MaxAuthorities", 4, [160, 134, 1, 0]⟩, ⟨"MaxNominators", 4, [0, 2, 0, 0]⟩]⟩,
   ⟨"Timestamp", [⟨"MinimumPeriod", 12, [184, 11, 0, 0, 0, 0, 0, 0]⟩]⟩,
   ⟨"Indices", [⟨"Deposit", 6, [0, 232, 118, 72, 23, 0, 0, 0, 0, 0, 0, 0, 0, 0, 0, 0]⟩]⟩,
   ⟨"Balances", [⟨"ExistentialDeposit", 6, [0, 228, 11, 84, 2, 0, 0, 0, 0, 0, 0, 0, 0, 0, 0, 0]⟩, ⟨"MaxLocks", 4, [50, 0, 0, 0]⟩, ⟨"MaxReserves", 4, [50, 0, 0, 0]⟩, ⟨"MaxFreezes", 4, [8, 0, 0, 0]⟩]⟩,
   ⟨"TransactionPayment", [⟨"OperationalFeeMultiplier", 2, [5]⟩]⟩,
   ⟨"Authorship", []⟩,
   ⟨"Staking", [⟨"HistoryDepth", 4, [84, 0, 0, 0]⟩, ⟨"SessionsPerEra", 4, [6, 0, 0, 0]⟩, ⟨"BondingDuration", 4, [28, 0, 0, 0]⟩, ⟨"SlashDeferDuration", 4, [27, 0, 0, 0]⟩, ⟨"MaxExposurePageSize", 4, [0, 2, 0, 0]⟩, ⟨"MaxUnlockingChunks", 4, [32, 0, 0, 0]⟩]⟩,
   ⟨"Offences", []⟩,
   ⟨"Historical", []⟩,
   ⟨"Session", []⟩,
   ⟨"Grandpa", [⟨"MaxAuthorities", 4, [160, 134, 1, 0]⟩, ⟨"MaxNominators", 4, [0, 2, 0, 0]⟩, ⟨"MaxSetIdSessionEntries", 12, [168, 0, 0, 0, 0, 0, 0, 0]⟩]⟩,
   ⟨"AuthorityDiscovery", []⟩,
   ⟨"Treasury", [⟨"SpendPeriod", 4, [0, 70, 5, 0]⟩, ⟨"Burn", 607, [16, 39, 0, 0]⟩, ⟨"PalletId", 608, [112, 121, 47, 116, 114, 115, 114, 121]⟩, ⟨"MaxApprovals", 4, [100, 0, 0, 0]⟩, ⟨"PayoutPeriod", 4, [128, 151, 6, 0]⟩]⟩,
   ⟨"ConvictionVoting", [⟨"MaxVotes", 4, [0, 2, 0, 0]⟩, ⟨"VoteLockingPeriod", 4, [192, 137, 1, 0]⟩]⟩,
   ⟨"Referenda", [⟨"SubmissionDeposit", 6, [0, 228, 11, 84, 2, 0, 0, 0, 0, 0, 0, 0, 0, 0, 0, 0]⟩, ⟨"MaxQueued", 4, [100, 0, 0, 0]⟩, ⟨"UndecidingTimeout", 4, [128, 19, 3, 0]⟩, ⟨"AlarmInterval", 4, [1, 0, 0, 0]⟩, ⟨"Tracks", 634, [64, 0, 0, 16, 114, 111, 111, 116, 1, 0, 0, 0, 0, 128, 198, 164, 126, 141, 3, 0, 0, 0, 0, 0, 0, 0, 0, 0, 176, 4, 0, 0, 0, 39, 6, 0, 64, 56, 0, 0, 64, 56, 0, 0, 2, 144, 215, 62, 13, 0, 0, 0, 0, 87, 67, 222, 19, 0, 0, 0, 0, 84, 67, 222, 19, 0, 0, 0, 0, 0, 0, 202, 154, 59, 0, 0, 0, 0, 0, 101, 205, 29, 1, 0, 72, 119, 104, 105, 116, 101, 108, 105, 115, 116, 101, 100, 95, 99, 97, 108, 108, 101, 114, 100, 0, 0, 0, 0, 64, 122, 16, 243, 90, 0, 0, 0, 0, 0, 0, 0, 0, 0, 0, 44, 1, 0, 0, 0, 39, 6, 0, 100, 0, 0, 0, 100, 0, 0, 0, 2, 236, 151, 37, 16, 0, 0, 0, 0, 123, 87, 60, 23, 0, 0, 0, 0, 66, 57, 47, 18, 0, 0, 0, 0, 2, 14, 0, 132, 0, 0, 0, 0, 0, 214, 230, 31, 1, 0, 0, 0, 0, 57, 98, 121, 2, 0, 0, 0, 0, 2, 0, 60, 119, 105, 115, 104, 95, 102, 111, 114, 95, 99, 104, 97, 110, 103, 101, 10, 0, 0, 0, 0, 128, 244, 32, 230, 181, 0, 0, 0, 0, 0, 0, 0, 0, 0, 0, 176, 4, 0, 0, 0, 39, 6, 0, 64, 56, 0, 0, 100, 0, 0, 0, 2, 144, 215, 62, 13, 0, 0, 0, 0, 87, 67, 222, 19, 0, 0, 0, 0, 84, 67, 222, 19, 0, 0, 0, 0, 0, 0, 202, 154, 59, 0, 0, 0, 0, 0, 101, 205, 29, 10, 0, 52, 115, 116, 97, 107, 105, 110, 103, 95, 97, 100, 109, 105, 110, 10, 0, 0, 0, 0, 32, 61, 136, 121, 45, 0, 0, 0, 0, 0, 0, 0, 0, 0, 0, 176, 4, 0, 0, 0, 39, 6, 0, 8, 7, 0, 0, 100, 0, 0, 0, 0, 201, 67, 48, 36, 0, 101, 205, 29, 0, 202, 154, 59, 2, 93, 111, 120, 0, 0, 0, 0, 0, 232, 46, 237, 0, 0, 0, 0, 0, 140, 104, 137, 255, 255, 255, 255, 255, 11, 0, 36, 116, 114, 101, 97, 115, 117, 114, 101, 114, 10, 0, 0, 0, 0, 160, 114, 78, 24, 9, 0, 0, 0, 0, 0, 0, 0, 0, 0, 0, 176, 4, 0, 0, 0, 39, 6, 0, 192, 137, 1, 0, 64, 56, 0, 0, 2, 144, 215, 62, 13, 0, 0, 0, 0, 87, 67, 222, 19, 0, 0, 0, 0, 84, 67, 222, 19, 0, 0, 0, 0, 0, 0, 202, 154, 59, 0, 0, 0, 0, 0, 101, 205, 29, 12, 0, 44, 108, 101, 97, 115, 101, 95, 97, 100, 109, 105, 110, 10, 0, 0, 0, 0, 32, 61, 136, 121, 45, 0, 0, 0, 0, 0, 0, 0, 0, 0, 0, 176, 4, 0, 0, 0, 39, 6, 0, 8, 7, 0, 0, 100, 0, 0, 0, 0, 201, 67, 48, 36, 0, 101, 205, 29, 0, 202, 154, 59, 2, 93, 111, 120, 0, 0, 0, 0, 0, 232, 46, 237, 0, 0, 0, 0, 0, 140, 104, 137, 255, 255, 255, 255, 255, 13, 0, 64, 102, 101, 108, 108, 111, 119, 115, 104, 105, 112, 95, 97, 100, 109, 105, 110, 10, 0, 0, 0, 0, 32, 61, 136, 121, 45, 0, 0, 0, 0, 0, 0, 0, 0, 0, 0, 176, 4, 0, 0, 0, 39, 6, 0, 8, 7, 0, 0, 100, 0, 0, 0, 0, 201, 67, 48, 36, 0, 101, 205, 29, 0, 202, 154, 59, 2, 93, 111, 120, 0, 0, 0, 0, 0, 232, 46, 237, 0, 0, 0, 0, 0, 140, 104, 137, 255, 255, 255, 255, 255, 14, 0, 52, 103, 101, 110, 101, 114, 97, 108, 95, 97, 100, 109, 105, 110, 10, 0, 0, 0, 0, 32, 61, 136, 121, 45, 0, 0, 0, 0, 0, 0, 0, 0, 0, 0, 176, 4, 0, 0, 0, 39, 6, 0, 8, 7, 0, 0, 100, 0, 0, 0, 2, 144, 215, 62, 13, 0, 0, 0, 0, 87, 67, 222, 19, 0, 0, 0, 0, 84, 67, 222, 19, 0, 0, 0, 0, 2, 89, 162, 244, 2, 0, 0, 0, 0, 163, 41, 107, 5, 0, 0, 0, 0, 46, 107, 74, 253, 255, 255, 255, 255, 15, 0, 52, 97, 117, 99, 116, 105, 111, 110, 95, 97, 100, 109, 105, 110, 10, 0, 0, 0, 0, 32, 61, 136, 121, 45, 0, 0, 0, 0, 0, 0, 0, 0, 0, 0, 176, 4, 0, 0, 0, 39, 6, 0, 8, 7, 0, 0, 100, 0, 0, 0, 2, 144, 215, 62, 13, 0, 0, 0, 0, 87, 67, 222, 19, 0, 0, 0, 0, 84, 67, 222, 19, 0, 0, 0, 0, 2, 89, 162, 244, 2, 0, 0, 0, 0, 163, 41, 107, 5, 0, 0, 0, 0, 46, 107, 74, 253, 255, 255, 255, 255, 20, 0, 80, 114, 101, 102, 101, 114, 101, 110, 100, 117, 109, 95, 99, 97, 110, 99, 101, 108, 108, 101, 114, 232, 3, 0, 0, 0, 64, 122, 16, 243, 90, 0, 0, 0, 0, 0, 0, 0, 0, 0, 0, 176, 4, 0, 0, 192, 137, 1, 0, 8, 7, 0, 0, 100, 0, 0, 0, 0, 201, 67, 48, 36, 0, 101, 205, 29, 0, 202, 154, 59, 2, 93, 111, 120, 0, 0, 0, 0, 0, 232, 46, 237, 0, 0, 0, 0, 0, 140, 104, 137, 255, 255, 255, 255, 255, 21, 0, 68, 114, 101, 102, 101, 114, 101, 110, 100, 117, 109, 95, 107, 105, 108, 108, 101, 114, 232, 3, 0, 0, 0, 64, 99, 82, 191, 198, 1, 0, 0, 0, 0, 0, 0, 0, 0, 0, 176, 4, 0, 0, 0, 39, 6, 0, 8, 7, 0, 0, 100, 0, 0, 0, 0, 201, 67, 48, 36, 0, 101, 205, 29, 0, 202, 154, 59, 2, 93, 111, 120, 0, 0, 0, 0, 0, 232, 46, 237, 0, 0, 0, 0, 0, 140, 104, 137, 255, 255, 255, 255, 255, 30, 0, 48, 115, 109, 97, 108, 108, 95, 116, 105, 112, 112, 101, 114, 200, 0, 0, 0, 0, 228, 11, 84, 2, 0, 0, 0, 0, 0, 0, 0, 0, 0, 0, 0, 10, 0, 0, 0, 192, 137, 1, 0, 100, 0, 0, 0, 10, 0, 0, 0, 0, 73, 145, 73, 21, 0, 101, 205, 29, 0, 202, 154, 59, 2, 249, 186, 24, 0, 0, 0, 0, 0, 42, 77, 49, 0, 0, 0, 0, 0, 107, 89, 231, 255, 255, 255, 255, 255, 31, 0, 40, 98, 105, 103, 95, 116, 105, 112, 112, 101, 114, 100, 0, 0, 0, 0, 232, 118, 72, 23, 0, 0, 0, 0, 0, 0, 0, 0, 0, 0, 0, 100, 0, 0, 0, 192, 137, 1, 0, 88, 2, 0, 0, 100, 0, 0, 0, 0, 73, 145, 73, 21, 0, 101, 205, 29, 0, 202, 154, 59, 2, 105, 79, 63, 0, 0, 0, 0, 0, 53, 150, 125, 0, 0, 0, 0, 0, 229, 52, 193, 255, 255, 255, 255, 255, 32, 0, 52, 115, 109, 97, 108, 108, 95, 115, 112, 101, 110, 100, 101, 114, 50, 0, 0, 0, 0, 16, 165, 212, 232, 0, 0, 0, 0, 0, 0, 0, 0, 0, 0, 0, 96, 9, 0, 0, 0, 39, 6, 0, 128, 112, 0, 0, 64, 56, 0, 0, 0, 201, 67, 48, 36, 0, 101, 205, 29, 0, 202, 154, 59, 2, 93, 111, 120, 0, 0, 0, 0, 0, 232, 46, 237, 0, 0, 0, 0, 0, 140, 104, 137, 255, 255, 255, 255, 255, 33, 0, 56, 109, 101, 100, 105, 117, 109, 95, 115, 112, 101, 110, 100, 101, 114, 50, 0, 0, 0, 0, 32, 74, 169, 209, 1, 0, 0, 0, 0, 0, 0, 0, 0, 0, 0, 96, 9, 0, 0, 0, 39, 6, 0, 0, 225, 0, 0, 64, 56, 0, 0, 0, 91, 1, 246, 48, 0, 101, 205, 29, 0, 202, 154, 59, 2, 17, 97, 219, 0, 0, 0, 0, 0, 191, 209, 170, 1, 0, 0, 0, 0, 32, 151, 42, 255, 255, 255, 255, 255, 34, 0, 44, 98, 105, 103, 95, 115, 112, 101, 110, 100, 101, 114, 50, 0, 0, 0, 0, 64, 148, 82, 163, 3, 0, 0, 0, 0, 0, 0, 0, 0, 0, 0, 96, 9, 0, 0, 0, 39, 6, 0, 192, 137, 1, 0, 64, 56, 0, 0, 0, 0, 202, 154, 59, 0, 101, 205, 29, 0, 202, 154, 59, 2, 65, 60, 176, 1, 0, 0, 0, 0, 117, 93, 52, 3, 0, 0, 0, 0, 69, 209, 101, 254, 255, 255, 255, 255]⟩]⟩,
   ⟨"Origins", []⟩,
   ⟨"Whitelist", []⟩,
   ⟨"Parameters", []⟩,
   ⟨"Claims", [⟨"Prefix", 14, [132, 80, 97, 121, 32, 68, 79, 84, 115, 32, 116, 111, 32, 116, 104, 101, 32, 80, 111, 108, 107, 97, 100, 111, 116, 32, 97, 99, 99, 111, 117, 110, 116, 58]⟩]⟩,
   ⟨"Vesting", [⟨"MinVestedTransfer", 6, [0, 228, 11, 84, 2, 0, 0, 0, 0, 0, 0, 0, 0, 0, 0, 0]⟩, ⟨"MaxVestingSchedules", 4, [28, 0, 0, 0]⟩]⟩,
   ⟨"Utility", [⟨"batched_calls_limit", 4, [170, 42, 0, 0]⟩]⟩,
   ⟨"Proxy", [⟨"ProxyDepositBase", 6, [0, 132, 178, 149, 46, 0, 0, 0, 0, 0, 0, 0, 0, 0, 0, 0]⟩, ⟨"ProxyDepositFactor", 6, [128, 102, 171, 19, 0, 0, 0, 0, 0, 0, 0, 0, 0, 0, 0, 0]⟩, ⟨"MaxProxies", 4, [32, 0, 0, 0]⟩, ⟨"MaxPending", 4, [32, 0, 0, 0]⟩, ⟨"AnnouncementDepositBase", 6, [0, 132, 178, 149, 46, 0, 0, 0, 0, 0, 0, 0, 0, 0, 0, 0]⟩, ⟨"AnnouncementDepositFactor", 6, [0, 205, 86, 39, 0, 0, 0, 0, 0, 0, 0, 0, 0, 0, 0, 0]⟩]⟩,
   ⟨"Multisig", [⟨"DepositBase", 6, [0, 140, 97, 197, 46, 0, 0, 0, 0, 0, 0, 0, 0, 0, 0, 0]⟩, ⟨"DepositFactor", 6, [0, 208, 18, 19, 0, 0, 0, 0, 0, 0, 0, 0, 0, 0, 0, 0]⟩, ⟨"MaxSignatories", 4, [100, 0, 0, 0]⟩]⟩,
   ⟨"Bounties", [⟨"BountyDepositBase", 6, [0, 228, 11, 84, 2, 0, 0, 0, 0, 0, 0, 0, 0, 0, 0, 0]⟩, ⟨"BountyDepositPayoutDelay", 4, [0, 0, 0, 0]⟩, ⟨"BountyUpdatePeriod", 4, [128, 198, 19, 0]⟩, ⟨"CuratorDepositMultiplier", 607, [32, 161, 7, 0]⟩, ⟨"CuratorDepositMax", 128, [1, 0, 32, 74, 169, 209, 1, 0, 0, 0, 0, 0, 0, 0, 0, 0, 0]⟩, ⟨"CuratorDepositMin", 128, [1, 0, 232, 118, 72, 23, 0, 0, 0, 0, 0, 0, 0, 0, 0, 0, 0]⟩, ⟨"BountyValueMinimum", 6, [0, 232, 118, 72, 23, 0, 0, 0, 0, 0, 0, 0, 0, 0, 0, 0]⟩, ⟨"DataDepositPerByte", 6, [0, 225, 245, 5, 0, 0, 0, 0, 0, 0, 0, 0, 0, 0, 0, 0]⟩, ⟨"MaximumReasonLength", 4, [0, 64, 0, 0]⟩]⟩,
   ⟨"ChildBounties", [⟨"MaxActiveChildBountyCount", 4, [100, 0, 0, 0]⟩, ⟨"ChildBountyValueMinimum", 6, [0, 228, 11, 84, 2, 0, 0, 0, 0, 0, 0, 0, 0, 0, 0, 0]⟩]⟩,
   ⟨"ElectionProviderMultiPhase", [⟨"BetterSignedThreshold", 43, [0, 0, 0, 0]⟩, ⟨"OffchainRepeat", 4, [18, 0, 0, 0]⟩, ⟨"MinerTxPriority", 12, [101, 102, 102, 102, 102, 102, 102, 230]⟩, ⟨"SignedMaxSubmissions", 4, [16, 0, 0, 0]⟩, ⟨"SignedMaxWeight", 10, [11, 8, 199, 114, 88, 85, 1, 19, 163, 112, 61, 10, 215, 163, 112, 189]⟩, ⟨"SignedMaxRefunds", 4, [4, 0, 0, 0]⟩, ⟨"SignedRewardBase", 6, [0, 228, 11, 84, 2, 0, 0, 0, 0, 0, 0, 0, 0, 0, 0, 0]⟩, ⟨"SignedDepositByte", 6, [120, 125, 1, 0, 0, 0, 0, 0, 0, 0, 0, 0, 0, 0, 0, 0]⟩, ⟨"SignedDepositWeight", 6, [0, 0, 0, 0, 0, 0, 0, 0, 0, 0, 0, 0, 0, 0, 0, 0]⟩, ⟨"MaxWinners", 4, [176, 4, 0, 0]⟩, ⟨"MinerMaxLength", 4, [0, 0, 54, 0]⟩, ⟨"MinerMaxWeight", 10, [11, 8, 199, 114, 88, 85, 1, 19, 163, 112, 61, 10, 215, 163, 112, 189]⟩, ⟨"MinerMaxVotesPerVoter", 4, [16, 0, 0, 0]⟩, ⟨"MinerMaxWinners", 4, [176, 4, 0, 0]⟩]⟩,
   ⟨"VoterList", [⟨"BagThresholds", 680, [33, 3, 0, 228, 11, 84, 2, 0, 0, 0, 243, 158, 128, 151, 2, 0, 0, 0, 168, 177, 151, 226, 2, 0, 0, 0, 148, 73, 46, 54, 3, 0, 0, 0, 39, 156, 58, 147, 3, 0, 0, 0, 3, 188, 206, 250, 3, 0, 0, 0, 66, 192, 27, 110, 4, 0, 0, 0, 27, 71, 117, 238, 4, 0, 0, 0, 56, 94, 85, 125, 5, 0, 0, 0, 70, 220, 96, 28, 6, 0, 0, 0, 137, 56, 108, 205, 6, 0, 0, 0, 182, 238, 128, 146, 7, 0, 0, 0, 254, 126, 227, 109, 8, 0, 0, 0, 232, 27, 26, 98, 9, 0, 0, 0, 176, 25, 244, 113, 10, 0, 0, 0, 16, 53, 146, 160, 11, 0, 0, 0, 207, 201, 111, 241, 12, 0, 0, 0, 65, 20, 109, 104, 14, 0, 0, 0, 231, 155, 218, 9, 16, 0, 0, 0, 206, 232, 133, 218, 17, 0, 0, 0, 40, 169, 199, 223, 19, 0, 0, 0, 187, 112, 147, 31, 22, 0, 0, 0, 142, 64, 137, 160, 24, 0, 0, 0, 129, 10, 9, 106, 27, 0, 0, 0, 54, 106, 72, 132, 30, 0, 0, 0, 91, 211, 106, 248, 33, 0, 0, 0, 128, 124, 156, 208, 37, 0, 0, 0, 201, 85, 48, 24, 42, 0, 0, 0, 189, 99, 193, 219, 46, 0, 0, 0, 113, 224, 87, 41, 52, 0, 0, 0, 104, 144, 146, 16, 58, 0, 0, 0, 237, 196, 212, 162, 64, 0, 0, 0, 105, 147, 121, 243, 71, 0, 0, 0, 143, 216, 12, 24, 80, 0, 0, 0, 75, 175, 138, 40, 89, 0, 0, 0, 106, 22, 166, 63, 99, 0, 0, 0, 9, 149, 23, 123, 110, 0, 0, 0, 120, 197, 244, 251, 122, 0, 0, 0, 98, 200, 17, 231, 136, 0, 0, 0, 81, 191, 109, 101, 152, 0, 0, 0, 4, 142, 171, 164, 169, 0, 0, 0, 84, 70, 152, 215, 188, 0, 0, 0, 145, 202, 192, 54, 210, 0, 0, 0, 23, 95, 24, 1, 234, 0, 0, 0, 189, 21, 178, 124, 4, 1, 0, 0, 67, 53, 143, 247, 33, 1, 0, 0, 184, 252, 132, 200, 66, 1, 0, 0, 153, 103, 60, 80, 103, 1, 0, 0, 7, 228, 78, 250, 143, 1, 0, 0, 179, 65, 131, 62, 189, 1, 0, 0, 2, 127, 46, 162, 239, 1, 0, 0, 152, 131, 188, 185, 39, 2, 0, 0, 22, 77, 101, 42, 102, 2, 0, 0, 180, 149, 19, 172, 171, 2, 0, 0, 45, 142, 130, 11, 249, 2, 0, 0, 161, 230, 152, 44, 79, 3, 0, 0, 166, 22, 8, 13, 175, 3, 0, 0, 204, 157, 55, 199, 25, 4, 0, 0, 160, 213, 132, 149, 144, 4, 0, 0, 66, 231, 224, 213, 20, 5, 0, 0, 2, 140, 215, 13, 168, 5, 0, 0, 15, 117, 10, 239, 75, 6, 0, 0, 234, 141, 46, 92, 2, 7, 0, 0, 195, 203, 153, 110, 205, 7, 0, 0, 177, 229, 113, 124, 175, 8, 0, 0, 170, 43, 142, 31, 171, 9, 0, 0, 181, 193, 32, 61, 195, 10, 0, 0, 38, 208, 61, 14, 251, 11, 0, 0, 112, 199, 89, 41, 86, 13, 0, 0, 235, 173, 218, 140, 216, 14, 0, 0, 247, 151, 219, 170, 134, 16, 0, 0, 207, 240, 68, 118, 101, 18, 0, 0, 31, 38, 96, 113, 122, 20, 0, 0, 9, 166, 17, 190, 203, 22, 0, 0, 29, 251, 232, 47, 96, 25, 0, 0, 148, 58, 60, 96, 63, 28, 0, 0, 138, 254, 137, 196, 113, 31, 0, 0, 206, 217, 99, 199, 0, 35, 0, 0, 3, 169, 42, 228, 246, 38, 0, 0, 254, 114, 238, 197, 95, 43, 0, 0, 54, 201, 204, 105, 72, 48, 0, 0, 218, 227, 50, 69, 191, 53, 0, 0, 6, 42, 116, 112, 212, 59, 0, 0, 124, 151, 50, 214, 153, 66, 0, 0, 132, 163, 36, 104, 35, 74, 0, 0, 87, 26, 212, 89, 135, 82, 0, 0, 231, 241, 2, 98, 222, 91, 0, 0, 13, 184, 118, 3, 68, 102, 0, 0, 174, 4, 1, 222, 214, 113, 0, 0, 125, 158, 179, 8, 185, 126, 0, 0, 30, 4, 74, 118, 16, 141, 0, 0, 58, 29, 240, 100, 7, 157, 0, 0, 224, 79, 175, 218, 204, 174, 0, 0, 86, 121, 240, 47, 149, 194, 0, 0, 149, 195, 170, 169, 154, 216, 0, 0, 150, 124, 5, 37, 30, 241, 0, 0, 23, 122, 102, 214, 103, 12, 1, 0, 40, 203, 31, 30, 200, 42, 1, 0, 250, 40, 47, 117, 152, 76, 1, 0, 213, 125, 200, 116, 60, 114, 1, 0, 125, 196, 179, 251, 34, 156, 1, 0, 54, 92, 222, 116, 199, 202, 1, 0, 158, 184, 225, 66, 179, 254, 1, 0, 12, 49, 174, 84, 127, 56, 2, 0, 95, 225, 1, 232, 213, 120, 2, 0, 99, 115, 218, 126, 116, 192, 2, 0, 81, 209, 166, 13, 46, 16, 3, 0, 199, 233, 164, 104, 237, 104, 3, 0, 97, 192, 145, 247, 183, 203, 3, 0, 191, 39, 161, 183, 176, 57, 4, 0, 123, 20, 153, 148, 27, 180, 4, 0, 133, 35, 237, 34, 97, 60, 5, 0, 105, 165, 212, 197, 18, 212, 5, 0, 236, 140, 147, 77, 239, 124, 6, 0, 245, 170, 144, 27, 232, 56, 7, 0, 140, 190, 93, 219, 38, 10, 8, 0, 2, 151, 140, 225, 19, 243, 8, 0, 250, 227, 20, 67, 93, 246, 9, 0, 221, 241, 45, 186, 254, 22, 11, 0, 46, 186, 220, 111, 74, 88, 12, 0, 12, 85, 24, 196, 242, 189, 13, 0, 240, 187, 84, 49, 21, 76, 15, 0, 73, 142, 134, 107, 70, 7, 17, 0, 178, 193, 83, 222, 159, 244, 18, 0, 39, 138, 47, 178, 206, 25, 21, 0, 178, 57, 159, 132, 36, 125, 23, 0, 225, 153, 231, 4, 170, 37, 26, 0, 186, 19, 245, 171, 51, 27, 29, 0, 38, 71, 133, 204, 120, 102, 32, 0, 136, 191, 128, 63, 45, 17, 36, 0, 28, 152, 35, 248, 29, 38, 40, 0, 204, 196, 34, 212, 80, 177, 44, 0, 240, 136, 130, 5, 40, 192, 49, 0, 54, 124, 109, 126, 137, 97, 55, 0, 110, 147, 41, 211, 10, 166, 61, 0, 140, 188, 108, 19, 34, 160, 68, 0, 0, 112, 243, 42, 92, 100, 76, 0, 180, 59, 132, 105, 153, 9, 85, 0, 128, 180, 171, 228, 80, 169, 94, 0, 160, 205, 169, 121, 219, 95, 105, 0, 76, 194, 127, 76, 199, 76, 117, 0, 208, 172, 14, 186, 52, 147, 130, 0, 72, 62, 12, 207, 61, 90, 145, 0, 104, 198, 142, 116, 105, 205, 161, 0, 40, 30, 111, 165, 43, 29, 180, 0, 152, 169, 35, 38, 116, 127, 200, 0, 240, 154, 116, 99, 77, 48, 223, 0, 128, 205, 252, 75, 141, 114, 248, 0, 144, 20, 96, 45, 154, 144, 20, 1, 240, 180, 19, 217, 69, 221, 51, 1, 32, 151, 53, 150, 193, 180, 86, 1, 80, 220, 251, 174, 173, 125, 125, 1, 224, 17, 152, 185, 71, 170, 168, 1, 48, 199, 238, 22, 187, 185, 216, 1, 32, 110, 72, 134, 151, 57, 14, 2, 160, 250, 75, 29, 114, 199, 73, 2, 192, 17, 113, 112, 181, 18, 140, 2, 128, 138, 22, 67, 166, 222, 213, 2, 192, 248, 35, 177, 162, 4, 40, 3, 128, 175, 89, 112, 162, 118, 131, 3, 192, 111, 45, 135, 255, 65, 233, 3, 64, 147, 127, 172, 143, 146, 90, 4, 0, 145, 9, 113, 23, 182, 216, 4, 64, 15, 223, 91, 33, 32, 101, 5, 0, 73, 193, 73, 68, 110, 1, 6, 0, 142, 188, 166, 229, 108, 175, 6, 0, 89, 86, 134, 133, 28, 113, 7, 128, 104, 170, 52, 164, 183, 72, 8, 128, 161, 226, 158, 82, 185, 56, 9, 0, 189, 171, 232, 128, 228, 67, 10, 0, 42, 114, 180, 32, 76, 109, 11, 128, 241, 192, 19, 51, 92, 184, 12, 0, 160, 60, 203, 220, 227, 40, 14, 128, 184, 98, 154, 158, 32, 195, 15, 0, 222, 86, 147, 210, 202, 139, 17, 0, 93, 127, 76, 147, 35, 136, 19, 0, 26, 135, 223, 53, 4, 190, 21, 0, 167, 206, 75, 132, 239, 51, 24, 0, 1, 16, 251, 234, 36, 241, 26, 0, 128, 42, 229, 209, 181, 253, 29, 0, 34, 161, 52, 96, 157, 98, 33, 0, 68, 33, 107, 240, 218, 41, 37, 0, 2, 97, 241, 130, 143, 94, 41, 0, 102, 32, 207, 133, 30, 13, 46, 0, 132, 16, 25, 82, 82, 67, 51, 0, 160, 193, 143, 202, 132, 16, 57, 0, 38, 173, 20, 147, 204, 133, 63, 0, 208, 205, 36, 102, 47, 182, 70, 0, 156, 225, 154, 28, 218, 182, 78, 0, 88, 204, 194, 12, 95, 159, 87, 0, 32, 10, 117, 120, 251, 137, 97, 0, 48, 187, 187, 214, 228, 147, 108, 0, 96, 203, 167, 220, 158, 221, 120, 0, 184, 59, 192, 66, 91, 139, 134, 0, 184, 134, 35, 97, 100, 197, 149, 0, 248, 241, 95, 220, 147, 184, 166, 0, 32, 106, 145, 192, 214, 150, 185, 0, 216, 239, 226, 143, 192, 151, 206, 0, 104, 41, 155, 245, 46, 249, 229, 255, 255, 255, 255, 255, 255, 255, 255]⟩]⟩,
   ⟨"NominationPools", [⟨"PalletId", 608, [112, 121, 47, 110, 111, 112, 108, 115]⟩, ⟨"MaxPointsToBalance", 2, [10]⟩, ⟨"MaxUnbonding", 4, [32, 0, 0, 0]⟩]⟩,
   ⟨"FastUnstake", [⟨"Deposit", 6, [0, 228, 11, 84, 2, 0, 0, 0, 0, 0, 0, 0, 0, 0, 0, 0]⟩]⟩,
   ⟨"ParachainsOrigin", []⟩,
   ⟨"Configuration", []⟩,
   ⟨"ParasShared", []⟩,
   ⟨"ParaInclusion", []⟩,
   ⟨"ParaInherent", []⟩,
   ⟨"ParaScheduler", []⟩,
   ⟨"Paras", [⟨"UnsignedPriority", 12, [255, 255, 255, 255, 255, 255, 255, 255]⟩]⟩,
   ⟨"Initializer", []⟩,
   ⟨"Dmp", []⟩,
   ⟨"Hrmp", []⟩,
   ⟨"ParaSessionInfo", []⟩,
   ⟨"ParasDisputes", []⟩,
   ⟨"ParasSlashing", []⟩,
   ⟨"OnDemand", [⟨"TrafficDefaultValue", 436, [0, 0, 100, 167, 179, 182, 224, 13, 0, 0, 0, 0, 0, 0, 0, 0]⟩, ⟨"MaxHistoricalRevenue", 4, [160, 0, 0, 0]⟩, ⟨"PalletId", 608, [112, 121, 47, 111, 110, 100, 109, 100]⟩]⟩,
   ⟨"CoretimeAssignmentProvider", []⟩,
   ⟨"Registrar", [⟨"ParaDeposit", 6, [0, 16, 165, 212, 232, 0, 0, 0, 0, 0, 0, 0, 0, 0, 0, 0]⟩, ⟨"DataDepositPerByte", 6, [128, 150, 152, 0, 0, 0, 0, 0, 0, 0, 0, 0, 0, 0, 0, 0]⟩]⟩,
   ⟨"Slots", [⟨"LeasePeriod", 4, [0, 117, 18, 0]⟩, ⟨"LeaseOffset", 4, [0, 16, 14, 0]⟩]⟩,
   ⟨"Auctions", [⟨"EndingPeriod", 4, [64, 25, 1, 0]⟩, ⟨"SampleLength", 4, [20, 0, 0, 0]⟩, ⟨"SlotRangeCount", 4, [36, 0, 0, 0]⟩, ⟨"LeasePeriodsPerSlot", 4, [8, 0, 0, 0]⟩]⟩,
   ⟨"Crowdloan", [⟨"PalletId", 608, [112, 121, 47, 99, 102, 117, 110, 100]⟩, ⟨"MinContribution", 6, [0, 116, 59, 164, 11, 0, 0, 0, 0, 0, 0, 0, 0, 0, 0, 0]⟩, ⟨"RemoveKeysLimit", 4, [232, 3, 0, 0]⟩]⟩,
   ⟨"Coretime", [⟨"BrokerId", 4, [237, 3, 0, 0]⟩, ⟨"BrokerPotLocation", 68, [1, 1, 0, 109, 111, 100, 108, 112, 121, 47, 98, 114, 111, 107, 101, 0, 0, 0, 0, 0, 0, 0, 0, 0, 0, 0, 0, 0, 0, 0, 0, 0, 0, 0, 0]⟩]⟩,
   ⟨"StateTrieMigration", [⟨"MaxKeyLen", 4, [0, 2, 0, 0]⟩]⟩,
   ⟨"XcmPallet", []⟩,
   ⟨"MessageQueue", [⟨"HeapSize", 4, [0, 0, 1, 0]⟩, ⟨"MaxStale", 4, [8, 0, 0, 0]⟩, ⟨"ServiceWeight", 452, [1, 7, 0, 160, 219, 33, 93, 19, 51, 51, 51, 51, 51, 51, 51, 51]⟩, ⟨"IdleMaxServiceWeight", 452, [1, 7, 0, 160, 219, 33, 93, 19, 51, 51, 51, 51, 51, 51, 51, 51]⟩]⟩,
   ⟨"AssetRate", []⟩,
   ⟨"Beefy", [⟨"MaxAuthorities", 4, [160, 134, 1, 0]⟩, ⟨"MaxNominators", 4, [0, 2, 0, 0]⟩, ⟨"MaxSetIdSessionEntries", 12, [168, 0, 0, 0, 0, 0, 0, 0]⟩]⟩,
   ⟨"Mmr", []⟩,
   ⟨"BeefyMmrLeaf", []⟩]

/-- The signed extensions of `for_tests/polkadot1003003_v15`. -/
def signedExtensions : List SignedExt :=
  [⟨"CheckNonZeroSender", 843, 35⟩,
   ⟨"CheckSpecVersion", 844, 4⟩,
   ⟨"CheckTxVersion", 845, 4⟩,
   ⟨"CheckGenesis", 846, 13⟩,
   ⟨"CheckMortality", 847, 13⟩,
   ⟨"CheckNonce", 849, 35⟩,
   ⟨"CheckWeight", 850, 35⟩,
   ⟨"ChargeTransactionPayment", 851, 35⟩,
   ⟨"PrevalidateAttests", 852, 35⟩,
   ⟨"CheckMetadataHash", 853, 33⟩]

/-- For each type of `for_tests/polkadot1003003_v15`: through how many structs, tuples, arrays and compacts it goes. -/
def ranks : List Nat :=
  [2, 1, 0, 3, 0, 2, 0, 1, 0, 3, 2, 1, 0, 2, 0, 1, 0, 0, 1, 0, 1, 0, 0, 3, 0, 0, 0, 2, 0, 0, 0, 0, 1, 0, 0, 0, 0, 0, 0, 0, 0, 0, 0, 1, 3, 2, 0, 0, 1, 0, 0, 0, 3, 2, 0, 0, 1, 0, 0, 1, 0, 0, 1, 1, 0, 0, 0, 1, 0, 1, 0, 0, 0, 1, 1, 1, 1, 1, 1, 1, 2, 0, 1, 0, 0, 0, 1, 0, 0, 0, 0, 0, 0, 0, 0, 0, 1, 0, 0, 0, 0, 0, 0, 4, 3, 2, 1, 1, 0, 1, 0, 0, 0, 0, 1, 0, 0, 0, 0, 0, 1, 0, 0, 0, 0, 0, 1, 0, 0, 0, 1, 2, 0, 0, 3, 2, 2, 2, 2, 1, 0, 1, 0, 5, 3, 2, 1, 4, 5, 3, 4, 0, 0, 0, 0, 1, 0, 0, 0, 0, 0, 0, 0, 1, 0, 0, 0, 0, 0, 0, 0, 0, 0, 0, 1, 0, 0, 0, 0, 0, 0, 2, 1, 2, 0, 1, 0, 0, 0, 1, 0, 0, 0, 0, 0, 0, 0, 1, 0, 0, 0, 2, 1, 0, 2, 1, 0, 4, 3, 2, 1, 0, 5, 4, 0, 5, 4, 0, 5, 4, 0, 5, 4, 0, 5, 4, 0, 5, 4, 0, 5, 4, 0, 5, 4, 0, 5, 4, 0, 5, 4, 0, 5, 4, 0, 5, 4, 0, 5, 4, 0, 5, 4, 1, 2, 0, 0, 3, 1, 0, 3, 0, 0, 0, 0, 0, 0, 0, 0, 0, 0, 3, 2, 0, 0, 0, 0, 1, 1, 0, 0, 0, 0, 1, 2, 0, 0, 0, 4, 0, 3, 1, 0, 0, 1, 2, 0, 6, 5, 4, 2, 2, 3, 2, 1, 1, 2, 0, 0, 1, 1, 0, 0, 0, 4, 3, 0, 3, 0, 0, 0, 0, 0, 4, 0, 0, 2, 0, 0, 5, 4, 0, 0, 0, 0, 0, 2, 0, 0, 0, 0, 0, 0, 0, 2, 0, 1, 0, 0, 1, 1, 0, 1, 0, 0, 1, 0, 0, 1, 0, 1, 0, 0, 0, 1, 0, 0, 1, 0, 0, 1, 0, 0, 0, 0, 1, 0, 0, 1, 0, 1, 0, 0, 0, 0, 1, 0, 1, 2, 1, 0, 0, 1, 0, 0, 3, 0, 0, 0, 0, 1, 0, 0, 1, 0, 3, 0, 0, 0, 1, 2, 1, 0, 0, 3, 0, 0, 0, 0, 0, 1, 0, 0, 1, 1, 0, 0, 1, 0, 0, 0, 0, 0, 0, 0, 0, 1, 0, 4, 2, 3, 2, 1, 0, 2, 1, 0, 1, 1, 0, 0, 1, 0, 2, 0, 0, 0, 0, 0, 0, 0, 0, 0, 0, 0, 0, 0, 0, 0, 0, 1, 0, 0, 0, 0, 5, 1, 1, 0, 0, 0, 0, 0, 0, 0, 0, 0, 0, 0, 0, 0, 0, 0, 0, 0, 0, 0, 0, 0, 2, 0, 3, 5, 4, 3, 2, 1, 1, 2, 1, 0, 2, 0, 1, 0, 1, 0, 1, 0, 0, 0, 0, 1, 3, 0, 3, 1, 0, 1, 3, 0, 1, 0, 0, 0, 3, 2, 2, 3, 2, 1, 1, 0, 0, 3, 0, 1, 2, 0, 0, 1, 2, 0, 1, 1, 0, 0, 0, 0, 1, 1, 0, 0, 0, 0, 0, 3, 1, 2, 1, 1, 0, 3, 2, 0, 3, 2, 3, 2, 2, 1, 0, 3, 0, 3, 2, 1, 1, 0, 4, 3, 2, 0, 4, 3, 2, 0, 0, 2, 1, 0, 1, 0, 3, 1, 1, 0, 1, 2, 0, 3, 0, 2, 1, 1, 0, 1, 1, 3, 1, 1, 0, 0, 0, 4, 3, 0, 0, 1, 0, 2, 1, 1, 0, 0, 2, 1, 0, 1, 0, 0, 0, 0, 1, 0, 0, 0, 0, 2, 1, 3, 0, 2, 1, 3, 0, 0, 3, 3, 1, 0, 3, 0, 1, 0, 1, 0, 0, 2, 1, 1, 3, 0, 1, 2, 0, 3, 0, 3, 1, 0, 0, 0, 3, 2, 1, 4, 1, 0, 0, 3, 2, 3, 1, 2, 1, 0, 2, 1, 0, 0, 2, 1, 1, 0, 3, 0, 4, 0, 0, 0, 1, 0, 3, 0, 5, 0, 1, 0, 6, 0, 2, 0, 0, 0, 0, 1, 0, 1, 0, 0, 2, 1, 0, 0, 0, 0, 0, 0, 2, 1, 0, 1, 0, 0, 0, 2, 0, 0, 1, 0, 1, 1, 0, 1, 0, 1, 0, 1, 0, 0, 2, 1, 1, 4, 1, 1, 0, 2, 1, 0, 3, 0, 2, 2, 1, 1, 1, 0, 1, 2, 0, 1, 0, 0, 2, 1, 1, 0, 1, 0, 2, 0, 3, 2, 0, 3, 0, 0, 0, 3, 1, 0, 3, 0, 3, 0, 0, 0, 0, 0, 0, 1, 0, 1, 3, 1, 1, 0, 0, 0, 3, 2, 1, 1, 0, 1, 1, 0, 0, 1, 0, 1, 1, 2, 1, 0, 0, 1, 0, 0, 3, 3, 0, 0, 0, 0, 1, 0, 2, 0, 2, 0, 1, 0, 0, 2, 1, 4, 1, 0, 0, 1, 0, 0, 0, 0, 0, 2, 1, 0, 2, 3, 0, 0, 1, 2, 1, 0, 0, 5, 0, 2, 0, 0, 0, 3, 0, 4, 0, 0, 0, 1, 0, 2, 0, 0, 0, 0, 4, 0, 0, 4, 0, 1, 0, 0, 5, 4, 1, 0, 2, 1, 0, 0, 4, 0, 5, 1, 0, 2, 0, 0, 1, 1, 0, 0, 0, 0, 0, 2, 0, 1, 1, 0, 2, 3, 0, 1, 0, 0, 3, 3, 1, 0, 1, 0, 0, 0, 0, 0, 0, 0, 1, 0, 0, 0, 1, 0, 0, 0, 1, 0, 0, 0, 0, 0, 0]

/-- The metadata `for_tests/polkadot1003003_v15`. -/
def v15 : V15 where
  types := types
  pallets := pallets
  params := ⟨113, 93, 341, 842⟩
  extrinsicVersion := 4
  signedExtensions := signedExtensions

end Verif.Polkadot
