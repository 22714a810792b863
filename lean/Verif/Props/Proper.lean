import Verif.Spec.Payload
import Verif.Proof.Proper
import Verif.Proof.Wallet
/-!
# C75: a properly built transaction is accepted, and only such

`Spec/Proper.lean` and `Spec/Payload.lean` say when a transaction is proper, in terms of types and values.
`Spec/Wallet.lean` is a program that writes transactions.
-/
namespace Verif
open Spec

variable {ME : Type} {M : Metadata ME} {b : Buf}

/-- Data for the parts. -/
theorem parts_data (hk : EmptyArraysGrounded R) : ∀ {fs : List Field} {ps : Parts}, ps.length = fs.length →
    (∀ x ∈ (fs.map (·.ty)).zip ps, Enc R false x.1 x.2.1 x.2.2) → ∃ ds : List FD, fdsValue ds = ps.named fs
  | [], [], _, _ => ⟨[], rfl⟩
  | f :: fs, (v, bs) :: ps, hl, h => by
    obtain ⟨d, _, hd⟩ := decodeAllAsType_complete hk (h (f.ty, v, bs) (by simp))
    obtain ⟨ds, hds⟩ := parts_data hk (fs := fs) (ps := ps) (by simpa using hl) (fun x hx => h x (by simp [hx]))
    refine ⟨⟨f.name, none, "", d⟩ :: ds, ?_⟩
    rw [fdsValue, hds, fdValue, hd]
    simp [Parts.named, Parts.values]
  | [], _ :: _, hl, _ => by simp at hl
  | _ :: _, [], hl, _ => by simp at hl

theorem callEnc_isCall (hk : EmptyArraysGrounded R) {id : Nat} {c : CallOf} {bs : Bytes} (h : CallEnc R id c bs) :
    ∃ c', IsCall R id c' bs ∧ callOf c' = c := by
  obtain ⟨⟨t, vs, hr, hd⟩, he⟩ := h
  obtain ⟨pal, nm, args⟩ := c
  dsimp only at he
  cases he with
  | newtype hr' _ hd' _ => rw [hr] at hr'; cases hr'; rw [hd] at hd'; cases hd'
  | primitive hr' _ hd' _ => rw [hr] at hr'; cases hr'; rw [hd] at hd'; cases hd'
  | compact hr' _ hd' _ => rw [hr] at hr'; cases hr'; rw [hd] at hd'; cases hd'
  | pallet hr' hp hsel hl hps =>
    obtain ⟨ds, hds⟩ := parts_data hk hl hps
    exact ⟨⟨⟨"", []⟩, "", pal, _, ds⟩, ⟨_, _, _, _, _, _, hr', hp, hsel, rfl, hl, hps, hds, rfl⟩, by
      unfold callOf; rw [hds]⟩

theorem Spec.IsCall.callEnc {id : Nat} {c : Call} {bs : Bytes} (h : IsCall R id c bs) : CallEnc R id (callOf c) bs := by
  refine ⟨?_, h.enc⟩
  obtain ⟨t, _, _, _, _, _, hr, ⟨_, vs, _, _, _, hd, _⟩, _⟩ := h
  exact ⟨t, vs, hr, hd⟩

theorem Spec.ItemsAre.itemsEnc {items : List (String × Nat)} {ds : List ED} {bs : Bytes} (h : ItemsAre R items ds bs) :
    ItemsEnc R items (ds.map edValue) bs := by
  obtain ⟨chunks, rfl, h1, h2, h3⟩ := h
  refine ⟨(ds.map edValue).zip chunks, ?_, ?_, by simp [h1, h2], ?_⟩
  · unfold Parts.values
    rw [List.map_fst_zip (by simp [h1, h2])]
  · unfold Parts.bytes
    rw [List.flatMap_def, List.map_snd_zip (by simp [h1, h2])]
  · intro x hx
    rw [List.zip_map_left, List.zip_map_right] at hx
    obtain ⟨y, hy, rfl⟩ := List.mem_map.1 hx
    exact (h3 y hy).1

/-- **C75.** `parse_transaction` accepts a transaction and shows the call `c` and the extension values `vs` exactly if
the data is the compact length of a call, the call, and the extensions of a proper transaction with these values. -/
theorem parseTransaction_exact (hk : EmptyArraysGrounded M.types) (hr : Reliable b) {expected : Option Bytes} {c : CallOf}
    {vs : List Value} :
    (∃ r k, parseTransaction M b expected = .ok r ∧ r.callResult = .ok k ∧ callOf k = c ∧ r.extensions.map edValue = vs) ↔
      ∃ callBytes extBytes, b.bytes = compactEncode callBytes.length ++ callBytes ++ extBytes ∧ callBytes.length < 2 ^ 32 ∧
        ProperTransaction M expected c vs callBytes extBytes := by
  constructor
  · rintro ⟨r, k, h, hc, rfl, rfl⟩
    obtain ⟨id, signed, spec, callBytes, extBytes, h1, h2, h3, hb, hl, h4, h5, h6⟩ := parseTransaction_sound_length h hc
    exact ⟨callBytes, extBytes, hb, hl, id, signed, spec, h1, h2, h3, h4.callEnc, h5.itemsEnc,
      (accepted_iff_proper h5.shownItems _ _).1 h6⟩
  · rintro ⟨callBytes, extBytes, hb, hl, id, signed, spec, h1, h2, h3, h4, ⟨ps, rfl, rfl, hpl, hps⟩, h6⟩
    obtain ⟨k, hk1, hk2⟩ := callEnc_isCall hk h4
    obtain ⟨exts, e1, e2, e3⟩ := parseTransaction_complete hk hr (expected := expected) h1 h2 h3 hl hb hk1 hpl hps
    obtain ⟨c', g1, g2, g3, g4⟩ := e3 ((accepted_iff_proper e2.shownItems _ _).2 (by rw [e1]; exact h6))
    refine ⟨_, c', g1, rfl, ?_, e1⟩
    rw [← hk2]; unfold callOf; rw [g2, g3, g4]

/-- **C75.** The same without the length. -/
theorem parseTransactionUnmarked_exact (hk : EmptyArraysGrounded M.types) (hr : Reliable b) {expected : Option Bytes}
    {c : CallOf} {vs : List Value} :
    (∃ r, parseTransactionUnmarked M b expected = .ok r ∧ callOf r.call = c ∧ r.extensions.map edValue = vs) ↔
      ∃ callBytes extBytes, b.bytes = callBytes ++ extBytes ∧ ProperTransaction M expected c vs callBytes extBytes := by
  constructor
  · rintro ⟨r, h, rfl, rfl⟩
    obtain ⟨id, signed, spec, callBytes, extBytes, h1, h2, h3, hb, h4, h5, h6⟩ := parseTransactionUnmarked_sound h
    exact ⟨callBytes, extBytes, hb, id, signed, spec, h1, h2, h3, h4.callEnc, h5.itemsEnc,
      (accepted_iff_proper h5.shownItems _ _).1 h6⟩
  · rintro ⟨callBytes, extBytes, hb, id, signed, spec, h1, h2, h3, h4, ⟨ps, rfl, rfl, hpl, hps⟩, h6⟩
    obtain ⟨k, hk1, hk2⟩ := callEnc_isCall hk h4
    obtain ⟨c', g1, g2, g3, g4⟩ := decodeAsCallUnmarked_complete (M := M) hk hr (pos := 0) h1 hk1
      (show At b.bytes 0 callBytes from ⟨[], ps.bytes, by simpa using hb, rfl⟩)
    obtain ⟨exts, e1, e2, _, e3⟩ := decodeExtensionsUnmarked_complete (M := M) hk hr (expected := expected)
      (pos := 0 + callBytes.length) h2 h3 hpl hps (by rw [hb]; simp) (by unfold Buf.len; rw [hb]; simp)
    have e3 := e3 ((accepted_iff_proper e2.shownItems _ _).2 (by rw [e1]; exact h6))
    refine ⟨⟨c', exts⟩, ?_, ?_, e1⟩
    · unfold parseTransactionUnmarked
      rw [g1, eok_bind]
      dsimp only
      rw [e3, eok_bind]
    · rw [← hk2]; unfold callOf; rw [g2, g3, g4]

/-- **C75.** A transaction whose extensions have values that are not proper is refused, whatever the call. -/
theorem parseTransaction_refuses (hk : EmptyArraysGrounded M.types) (hr : Reliable b) {expected : Option Bytes}
    {signed : List SignedExt} {spec : SpecNameVersion} (h2 : M.signedExtensions = .ok signed)
    (h3 : M.specNameVersion = .ok spec) {vs : List Value} {callBytes extBytes : Bytes} (hl : callBytes.length < 2 ^ 32)
    (hb : b.bytes = compactEncode callBytes.length ++ callBytes ++ extBytes)
    (hi : ItemsEnc M.types (extItems signed) vs extBytes)
    (hp : ¬ Proper M.types (extItems signed) vs spec.printedSpecVersion expected) (r : TransactionParsed ME) :
    parseTransaction M b expected ≠ .ok r := by
  intro h
  obtain ⟨m, hm, he, _⟩ := parseTransaction_iff.1 h
  rw [mark_complete hr hl hb] at hm
  cases hm
  obtain ⟨ps, rfl, rfl, hpl, hps⟩ := hi
  obtain ⟨exts, e1, e2, e3, _⟩ := decodeExtensionsUnmarked_complete (M := M) hk hr (expected := expected)
    (pos := (compactEncode callBytes.length).length + callBytes.length) h2 h3 hpl hps
    (by rw [hb, List.drop_left' (by simp)]) (by unfold Buf.len; rw [hb]; simp)
  have ha := (accepted_iff_proper e2.shownItems _ _).1 (e3.1 ⟨_, he⟩)
  rw [e1] at ha
  exact hp ha

/-! ### The wallet -/

/-- **C75.** The program decides what is proper. -/
theorem wallet_decides {R : Registry} {n : Nat} {items : List (String × Nat)} {vs : List Value} {version : String}
    {expected : Option Bytes} {o : Bool} (hl : vs.length = items.length)
    (h : Wallet.proper R n items vs version expected = some o) : o = true ↔ Proper R items vs version expected :=
  Wallet'.proper_iff hl h

/-- **C75.** What the wallet writes is parsed, and shows exactly the values it was written from. -/
theorem wallet_parsed (hk : EmptyArraysGrounded M.types) {n : Nat} {expected : Option Bytes} {c : CallOf} {vs : List Value}
    {callBytes extBytes : Bytes} (h : Wallet.transaction M n expected c vs = some (callBytes, extBytes))
    (hl : callBytes.length < 2 ^ 32) :
    ∃ r k, parseTransaction M (Buf.ofBytes (compactEncode callBytes.length ++ callBytes ++ extBytes)) expected = .ok r ∧
      r.callResult = .ok k ∧ callOf k = c ∧ r.extensions.map edValue = vs :=
  (parseTransaction_exact hk (reliable_ofBytes _)).2 ⟨callBytes, extBytes, rfl, hl, Wallet'.transaction_proper h⟩

/-- **C75.** The same without the length. -/
theorem wallet_parsed_unmarked (hk : EmptyArraysGrounded M.types) {n : Nat} {expected : Option Bytes} {c : CallOf}
    {vs : List Value} {callBytes extBytes : Bytes}
    (h : Wallet.transaction M n expected c vs = some (callBytes, extBytes)) :
    ∃ r, parseTransactionUnmarked M (Buf.ofBytes (callBytes ++ extBytes)) expected = .ok r ∧
      callOf r.call = c ∧ r.extensions.map edValue = vs :=
  (parseTransactionUnmarked_exact hk (reliable_ofBytes _)).2 ⟨callBytes, extBytes, rfl, Wallet'.transaction_proper h⟩

/-- **C75.** Every transaction that is parsed can be written by the wallet, from what is shown. If names tell
variants apart and the values leave no freedom, it writes the same bytes. -/
theorem parsed_written {expected : Option Bytes} {r : TransactionParsed ME} {k : Call}
    (h : parseTransaction M b expected = .ok r) (hc : r.callResult = .ok k) :
    ∃ n0, ∀ n, n0 ≤ n → ∃ callBytes extBytes,
      Wallet.transaction M n expected (callOf k) (r.extensions.map edValue) = some (callBytes, extBytes) ∧
      (NamesDistinct M.types → SignaturesDistinct M.types → (∀ a ∈ fdsValue k.fields, Firm a.2) →
        (∀ e ∈ r.extensions, Firm (edValue e)) →
        b.bytes = compactEncode callBytes.length ++ callBytes ++ extBytes) := by
  obtain ⟨id, signed, spec, callBytes, extBytes, h1, h2, h3, hb, hl, h4, h5, h6⟩ := parseTransaction_sound_length h hc
  have hp : ProperTransaction M expected (callOf k) (r.extensions.map edValue) callBytes extBytes :=
    ⟨id, signed, spec, h1, h2, h3, h4.callEnc, h5.itemsEnc, (accepted_iff_proper h5.shownItems _ _).1 h6⟩
  obtain ⟨n0, hn⟩ := Wallet'.proper_transaction hp
  refine ⟨n0, fun n hle => ?_⟩
  obtain ⟨cb, eb, hw⟩ := hn n hle
  refine ⟨cb, eb, hw, fun d1 d2 f1 f2 => ?_⟩
  obtain ⟨rfl, rfl⟩ := Wallet'.properTransaction_unique d1 d2 f1 (fun v hv => by
    obtain ⟨e, he, rfl⟩ := List.mem_map.1 hv; exact f2 e he) hp (Wallet'.transaction_proper hw)
  exact hb

/-! ### Instances -/

namespace Example

/-- The call of the example. -/
def transfer : CallOf := ⟨"Balances", "transfer", [(some "dest", .uint .u8 7), (some "value", .uint .u32 1)]⟩

/-- Values of the extensions of the example: `()`, `()`, an immortal era, spec version, genesis hash, block hash. -/
def extValues (version : Nat) (block : Bytes) : List Value :=
  [.tuple [], .tuple [], .era .immortal, .uint .u32 version, .hash genesis, .hash block]

theorem transfer_written : Wallet.transaction chain 4 (some genesis) transfer (extValues 9 genesis) = some (callBytes, extBytes) := by
  decide +kernel

example : ∃ r k, parseTransaction chain payload (some genesis) = .ok r ∧ r.callResult = .ok k ∧ callOf k = transfer ∧
    r.extensions.map edValue = extValues 9 genesis :=
  wallet_parsed chain_ranked.emptyArrays transfer_written (by decide)

/-- Another block hash with an immortal era, another version, another chain: refused. -/
example : Wallet.transaction chain 4 (some genesis) transfer (extValues 9 (List.replicate 32 0xbb)) = none ∧
    Wallet.transaction chain 4 (some genesis) transfer (extValues 10 genesis) = none ∧
    Wallet.transaction chain 4 (some (List.replicate 32 0xbb)) transfer (extValues 9 genesis) = none := by decide +kernel

theorem wrongVersion : ¬ Proper chain.types (extItems chainExtensions) (extValues 10 genesis) "9" none := by
  intro h
  have := (wallet_decides (R := chain.types) (n := 2) (items := extItems chainExtensions) (vs := extValues 10 genesis)
    (version := "9") (expected := none) (o := false) rfl (by decide +kernel)).2 h
  cases this

example (r : TransactionParsed Unit) :
    parseTransaction chain (Buf.ofBytes ([28] ++ callBytes ++ ([0] ++ [10, 0, 0, 0] ++ genesis ++ genesis))) none ≠ .ok r :=
  parseTransaction_refuses chain_ranked.emptyArrays (reliable_ofBytes _) (signed := chainExtensions) rfl
    (spec := ⟨"9", "example"⟩) rfl (callBytes := callBytes) (extBytes := [0] ++ [10, 0, 0, 0] ++ genesis ++ genesis)
    (by decide) rfl (Wallet'.parts_itemsEnc (n := 4) (vs := extValues 10 genesis) (by decide +kernel)) wrongVersion r

end Example

end Verif
