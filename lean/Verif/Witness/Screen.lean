import Verif.Props.Screen
import Verif.Witness.Westend
/-! # Every theorem applied to a concrete case: C85

The lines that the crate's own test of the documented transaction expects (src/tests.rs:392-421). -/
namespace Verif.Witness.Screen
open Spec Verif.Westend Spec.Westend Witness.Westend

/-- src/tests.rs:118-124 -/
def specs : ShortSpecs := ⟨42, 12, "WND"⟩

/-- The first bytes of blake2b of `SS58PRE`, prefix and key, for this key. -/
abbrev printers : Printers := ss58Printers (fun _ => (0x73, 0x82)) (fun _ => [])

/-- `digits58` in at most `fuel` steps. -/
def digits (fuel n : Nat) : List Nat :=
  match fuel with
  | 0 => []
  | fuel + 1 => if n = 0 then [] else digits fuel (n / 58) ++ [n % 58]

theorem digits_eq : ∀ (fuel n : Nat), n < 58 ^ fuel → digits58 n = digits fuel n
  | 0, n, h => by
    obtain rfl : n = 0 := by simpa using h
    rw [digits58]; rfl
  | fuel + 1, n, h => by
    rw [digits58, digits]
    by_cases e : n = 0
    · rw [dif_pos e, if_pos e]
    · rw [dif_neg e, if_neg e, digits_eq fuel (n / 58) (by rw [Nat.pow_succ] at h; omega)]

theorem address : printers.base58 .id account specs.base58prefix = "5FHneW46xGXgs5mUiveU4sbTyGBzmstUspZC92UhjJM694ty" := by
  unfold printers ss58Printers ss58 Spec.base58
  dsimp only
  rw [digits_eq 64 _ (by decide +kernel)]
  decide +kernel

theorem call_text : callScreen specs "5FHneW46xGXgs5mUiveU4sbTyGBzmstUspZC92UhjJM694ty" 100000000 =
    ["Pallet: Balances",
     "  Call: transfer_keep_alive",
     "    Field Name: dest",
     "      Enum",
     "        Enum Variant Name: Id",
     "          Id: 5FHneW46xGXgs5mUiveU4sbTyGBzmstUspZC92UhjJM694ty",
     "    Field Name: value",
     "      Balance: 100.000000 uWND"] := by decide +kernel

theorem extensions_text : extensionsScreen specs extensions =
    ["Era: Mortal, phase: 61, period: 64",
     "Nonce: 261",
     "Tip: 10.000000 uWND",
     "Chain: westend9111",
     "Tx Version: 7",
     "Genesis Hash: e143f23803ac50e8f6f8e62695d1ce9e4e1d68aa36c1cd2cfd15340213f3423e",
     "Block Hash: 98a8ee9e389043cd8a9954b254d822d34138b9ae97d3b7f50dc6781b13df8d84"] := by decide +kernel

/-- The documented transaction, as expected in src/tests.rs:392-421. -/
example : ∃ r k, parseTransaction westend.toMetadata b (some genesis) = .ok r ∧ r.callResult = .ok k ∧
    screen Example.bitsText (k.card printers specs "westend" 0) =
      ["Pallet: Balances",
       "  Call: transfer_keep_alive",
       "    Field Name: dest",
       "      Enum",
       "        Enum Variant Name: Id",
       "          Id: 5FHneW46xGXgs5mUiveU4sbTyGBzmstUspZC92UhjJM694ty",
       "    Field Name: value",
       "      Balance: 100.000000 uWND"] ∧
    screen Example.bitsText (r.card printers specs "westend").extensions =
      ["Era: Mortal, phase: 61, period: 64",
       "Nonce: 261",
       "Tip: 10.000000 uWND",
       "Chain: westend9111",
       "Tx Version: 7",
       "Genesis Hash: e143f23803ac50e8f6f8e62695d1ce9e4e1d68aa36c1cd2cfd15340213f3423e",
       "Block Hash: 98a8ee9e389043cd8a9954b254d822d34138b9ae97d3b7f50dc6781b13df8d84"] := by
  have := westend_screen (b := b) printers specs Example.bitsText (reliable_ofBytes _) (by decide : account.length = 32)
    (by decide : 100000000 < 2 ^ 128) extensions_valid documented_eq
  rwa [address, call_text, extensions_text] at this

/-- No other payload shows them. -/
example (b' : Buf) (hr : Reliable b') : (∃ r k, parseTransaction westend.toMetadata b' (some genesis) = .ok r ∧ r.callResult = .ok k ∧
    screen Example.bitsText (k.card printers specs "westend" 0) = callScreen specs (printers.base58 .id account specs.base58prefix) 100000000 ∧
    screen Example.bitsText (r.card printers specs "westend").extensions = extensionsScreen specs extensions) ↔ b'.bytes = documented := by
  rw [documented_eq]
  exact westend_screen_only (by decide) Meaning.bits_shown hr (by decide) (by decide) extensions_valid

/-- 0.0001 of the unit. -/
example : Money specs 100000000 "100.000000 uWND" := by
  have := amountText_money specs (by decide) 100000000 (by decide)
  rwa [show amountText specs 100000000 = "100.000000 uWND" from by decide +kernel] at this

end Verif.Witness.Screen
