import Verif.Proof.TxPieces
import Verif.Props.Names
import Verif.Props.Extrinsic
import Verif.Props.Extensions
import Verif.Props.Node
/-!
# C80. A transaction is decoded as its parts are
-/
namespace Verif
open Spec

variable {ME : Type} {R : Registry} {b : Buf}

/-- **C80** for `decode_as_call_unmarked`: the outcome is that of `decode_as_type_at_position` for the call type. -/
theorem pieces_call (M : Metadata ME) (b : Buf) (pos : Nat) :
    (match decodeAsCallUnmarked M b pos with
      | .ok (c, q) => .ok (callOf c, q)
      | .error e => .error e) = callAs M b pos := (decodeAsCallUnmarked_pieces M b pos).symm

/-- **C80** for `decode_extensions_unmarked`: the outcome is that of `decode_as_type_at_position` for every part, one
after another, and of a look at the values. -/
theorem pieces_extensions (M : Metadata ME) (b : Buf) (pos : Nat) (expected : Option Bytes) :
    (match decodeExtensionsUnmarked M b pos expected with
      | .ok l => .ok (l.map edValue)
      | .error e => .error e) = extensionsAs M b pos expected := (decodeExtensionsUnmarked_pieces M b pos expected).symm

/-- **C80** for `parse_transaction`. -/
theorem pieces_transaction (M : Metadata ME) (b : Buf) (expected : Option Bytes) :
    toldTransaction (parseTransaction M b expected) = transactionAs M b expected := by
  unfold parseTransaction transactionAs
  cases hm : mark (ME := ME) b with
  | error e => rfl
  | ok m =>
    have hd : m.data = b := by
      unfold mark at hm
      obtain ⟨⟨n, s⟩, _, hm⟩ := ebind_ok.1 hm
      obtain ⟨_, _, hm⟩ := ebind_ok.1 hm
      cases hm; rfl
    rw [eok_bind, eok_bind, decodeExtensionsUnmarked_pieces]
    unfold decodeExtensions
    rw [hd]
    cases decodeExtensionsUnmarked M b m.extensionsStart expected with
    | error e => rfl
    | ok l =>
      rw [eok_bind]
      dsimp only
      rw [eok_bind, decodeAsCall_pieces]
      cases decodeAsCall M m with
      | ok c => rfl
      | error e => cases e <;> rfl

/-- **C80** for `parse_transaction_unmarked`. -/
theorem pieces_transaction_unmarked (M : Metadata ME) (b : Buf) (expected : Option Bytes) :
    toldUnmarked (parseTransactionUnmarked M b expected) = unmarkedAs M b expected := by
  unfold parseTransactionUnmarked unmarkedAs
  rw [decodeAsCallUnmarked_pieces]
  cases decodeAsCallUnmarked M b 0 with
  | error e => rfl
  | ok x =>
    obtain ⟨c, q⟩ := x
    dsimp only
    rw [eok_bind, eok_bind]
    dsimp only
    rw [decodeExtensionsUnmarked_pieces]
    cases decodeExtensionsUnmarked M b q expected with
    | error e => rfl
    | ok l => rfl

theorem extrinsicPart_pieces (id pos : Nat) :
    (valueAs R b id pos).mapErr .parsing = (match extrinsicPart (ME := ME) R b id pos with
      | .ok (d, q) => .ok (edValue d, q)
      | .error e => .error e : Except (Out (UErr ME)) (Value × Nat)) := by
  unfold valueAs extrinsicPart
  cases decodeAsTypeAtPosition R b id pos with
  | ok x => rfl
  | error e => cases e <;> rfl

theorem extrinsicCall_pieces (id pos : Nat) :
    extrinsicCallAs R b id pos = (match extrinsicCall (ME := ME) R b id pos with
      | .ok c => .ok (callOf c)
      | .error e => .error e) := by
  unfold extrinsicCallAs extrinsicCall
  rw [extrinsicPart_pieces]
  cases hd : extrinsicPart (ME := ME) R b id pos with
  | error e => rfl
  | ok x =>
    obtain ⟨d, q⟩ := x
    have h := callIn_decoded (mapErr_ok.1 hd)
    dsimp only
    rw [eok_bind, eok_bind]
    dsimp only
    rw [h]
    cases d.data.asCall <;> rfl

/-- **C80** for `decode_as_unchecked_extrinsic`. -/
theorem pieces_extrinsic (M : CompleteMetadata ME) (b : Buf) :
    toldExtrinsic (decodeUncheckedExtrinsic M b) = extrinsicAs M b := by
  unfold decodeUncheckedExtrinsic extrinsicAs
  cases mapOut UErr.metaStructure M.extrinsicTypeParams with
  | error e => rfl
  | ok params =>
    rw [eok_bind, eok_bind]
    cases (getCompact (compactUInt .u32) b 0).mapErr (fun _ => UErr.formatNoCompact (ME := ME)) with
    | error e => rfl
    | ok x =>
      obtain ⟨n, s⟩ := x
      rw [eok_bind, eok_bind]
      dsimp only
      split
      · rfl
      · split
        · rfl
        · cases (b.readByte s).mapErr (UErr.parsing (ME := ME)) with
          | error e => rfl
          | ok v =>
            rw [eok_bind, eok_bind]
            cases mapOut UErr.metaStructure M.extrinsicVersion with
            | error e => rfl
            | ok w =>
              rw [eok_bind, eok_bind]
              unfold extrinsicContent
              by_cases hv : v.toNat % 128 = w.toNat
              · rw [if_neg (by rw [version_bits]; simpa using hv), if_pos hv]
                unfold extrinsicPiecesAs
                by_cases hs : v.toNat < 128
                · rw [if_pos ((sign_bit v).2 hs), if_neg (by simp; omega), extrinsicCall_pieces]
                  cases extrinsicCall (ME := ME) M.types b params.callTy (s + 1) <;> rfl
                · rw [if_neg (fun h => hs ((sign_bit v).1 h)), if_pos (by simp; omega), extrinsicPart_pieces]
                  cases extrinsicPart (ME := ME) M.types b params.addressTy (s + 1) with
                  | error e => rfl
                  | ok x =>
                    obtain ⟨d1, q1⟩ := x
                    dsimp only
                    rw [eok_bind, eok_bind]
                    dsimp only
                    rw [extrinsicPart_pieces]
                    cases extrinsicPart (ME := ME) M.types b params.signatureTy q1 with
                    | error e => rfl
                    | ok x =>
                      obtain ⟨d2, q2⟩ := x
                      dsimp only
                      rw [eok_bind, eok_bind]
                      dsimp only
                      rw [extrinsicPart_pieces]
                      cases extrinsicPart (ME := ME) M.types b params.extraTy q2 with
                      | error e => rfl
                      | ok x =>
                        obtain ⟨d3, q3⟩ := x
                        dsimp only
                        rw [eok_bind, eok_bind]
                        dsimp only
                        rw [extrinsicCall_pieces]
                        cases extrinsicCall (ME := ME) M.types b params.callTy q3 <;> rfl
              · rw [if_pos (by rw [version_bits]; exact hv), if_neg hv]; rfl

/-- The items one after another, as extensions. -/
def asExtensions (items : List (String × Nat)) : List SignedExt := items.map fun i => ⟨i.1, i.2, 0⟩

/-- **C80.** Nothing is found wrong with the values exactly if they are proper (`Spec/Proper`). -/
theorem verdict_proper {items : List (String × Nat)} {pos q : Nat} {vs : List Value}
    (h : eachAs R b (items.map (·.2)) pos = .ok (vs, q)) (version : String) (expected : Option Bytes) :
    verdict (ME := ME) (counting R items vs) version expected = none ↔ Proper R items vs version expected := by
  have hi : (asExtensions items).map (·.ty) = items.map (·.2) := by simp [asExtensions, Function.comp_def]
  have hl := extensionsLoop_pieces (ME := ME) (R := R) (b := b) (·.ty) (asExtensions items) pos
  rw [hi, h] at hl
  cases hd : extensionsLoop (ME := ME) R b (·.ty) (asExtensions items) pos with
  | error e => rw [hd] at hl; cases hl
  | ok x =>
    obtain ⟨ds, q'⟩ := x
    rw [hd] at hl
    cases hl
    obtain ⟨bs, _, _, hit⟩ := extensionsLoop_sound hd
    have he : (asExtensions items).map (fun e => (e.identifier, e.ty)) = items := by
      simp [asExtensions, Function.comp_def]
    rw [he] at hit
    rw [← accepted_iff_proper hit.shownItems, ← checkExtensions_iff (ME := ME), checkExtensions_verdict]
    obtain ⟨chunks, _, k1, k2, k3⟩ := hit
    rw [counting_seen k1 k2 k3]
    cases verdict (ME := ME) (ds.filterMap seenMark) version expected <;> simp

/-! ### Names, for transactions (C79) -/

/-- The call with the new names in it. -/
def Spec.CallOf.renamed (N : Names) (c : CallOf) : CallOf := ⟨N.variant c.pallet, N.variant c.call, renamedFields N c.args⟩

/-- What a transaction tells, with the new names in it. -/
def Spec.renamedTransaction (N : Names) (r : SRes ME (Except (SErr ME) CallOf × List Value)) :
    SRes ME (Except (SErr ME) CallOf × List Value) :=
  match r with
  | .ok (.ok c, vs) => .ok (.ok (c.renamed N), renamedAll N vs)
  | .ok (.error e, vs) => .ok (.error e, renamedAll N vs)
  | .error e => .error e

/-- `M'` is `M` with other names in the registry; and what counts as spec version, genesis hash, block hash, era among
the extensions is the same. -/
structure Spec.RenamedMetadata (N : Names) (M M' : Metadata ME) : Prop where
  types : RenamedIn N M.types M'.types
  call : M'.callTy = M.callTy
  version : M'.specNameVersion = M.specNameVersion
  extensions : M'.signedExtensions = M.signedExtensions
  counts : ∀ signed, M.signedExtensions = .ok signed → ∀ item ∈ extItems signed, mark? M'.types item = mark? M.types item

variable {N : Names} {R' : Registry}

theorem renamedAll_map (l : List Value) : renamedAll N l = l.map (renamed N) := by
  induction l with
  | nil => rfl
  | cons v l ih => rw [renamedAll, ih]; rfl

theorem eachAs_names (h : RenamedIn N R R') (ids : List Nat) (pos : Nat) : eachAs R' b ids pos =
    match eachAs R b ids pos with
    | .ok (vs, q) => .ok (renamedAll N vs, q)
    | .error e => .error e := by
  induction ids generalizing pos with
  | nil => rfl
  | cons i ids ih =>
    unfold eachAs
    rw [decode_names h]
    cases valueAs R b i pos with
    | error e => rfl
    | ok x =>
      obtain ⟨v, q⟩ := x
      simp only [renamedOutcome, ih q]
      cases eachAs R b ids q with
      | error e => rfl
      | ok y => rfl

theorem enumType_names (h : RenamedIn N R R') (id : Nat) : enumType R' id = enumType R id := by
  have he := h.entry id
  unfold enumType
  cases h1 : R.resolve id with
  | error e =>
    cases h2 : R'.resolve id with
    | error e' => rfl
    | ok t' => rw [h1, h2] at he; cases he
  | ok t =>
    cases h2 : R'.resolve id with
    | error e' => rw [h1, h2] at he; cases he
    | ok t' =>
      rw [h1, h2] at he
      have hd := RenamedTyp.typeDef he
      dsimp only
      generalize t.typeDef = x at hd
      generalize t'.typeDef = y at hd
      cases hd <;> rfl

theorem callIn_names (h : RenamedIn N R R') (id : Nat) (v : Value) :
    callIn R' id (renamed N v) = (callIn R id v).map (·.renamed N) := by
  cases v <;> simp only [renamed, callIn, Option.map]
  rename_i item p n args
  cases item with
  | call =>
    simp only [enumType_names h]
    cases enumType R id <;> rfl
  | event => rfl

theorem callAs_names {M M' : Metadata ME} (h : RenamedMetadata N M M') (b : Buf) (pos : Nat) : callAs M' b pos =
    match callAs M b pos with
    | .ok (c, q) => .ok (c.renamed N, q)
    | .error e => .error e := by
  unfold callAs
  rw [h.call]
  cases mapOut SErr.metaStructure M.callTy with
  | error e => rfl
  | ok id =>
    rw [eok_bind, eok_bind, decode_names h.types]
    cases valueAs M.types b id pos with
    | error e => cases e <;> rfl
    | ok x =>
      obtain ⟨v, q⟩ := x
      simp only [renamedOutcome]
      rw [mapErr_ok.2 rfl, mapErr_ok.2 rfl, eok_bind, eok_bind]
      dsimp only
      rw [callIn_names h.types]
      cases callIn M.types id v <;> rfl

theorem markedCallAs_names {M M' : Metadata ME} (h : RenamedMetadata N M M') (m : Marked) : markedCallAs M' m =
    match markedCallAs M m with
    | .ok c => .ok (c.renamed N)
    | .error e => .error e := by
  unfold markedCallAs
  cases m.dataNoExtensions (ME := ME) with
  | error e => rfl
  | ok data =>
    rw [eok_bind, eok_bind, callAs_names h]
    cases callAs M data m.callStart with
    | error e => rfl
    | ok x =>
      obtain ⟨c, q⟩ := x
      dsimp only
      rw [eok_bind, eok_bind]
      dsimp only
      split <;> rfl

theorem counting_names : ∀ {items : List (String × Nat)} {vs : List Value},
    (∀ item ∈ items, mark? R' item = mark? R item) →
    counting R' items (renamedAll N vs) = (counting R items vs).map fun x => (x.1, renamed N x.2)
  | [], _, _ => rfl
  | _ :: _, [], _ => rfl
  | i :: items, v :: vs, h => by
    have ih := counting_names (items := items) (vs := vs) fun j hj => h j (List.mem_cons_of_mem _ hj)
    unfold counting at ih ⊢
    rw [renamedAll, List.zip_cons_cons, List.zip_cons_cons, List.filterMap_cons, List.filterMap_cons, ih]
    dsimp only
    rw [h i List.mem_cons_self]
    cases mark? R i <;> rfl

theorem secondTime_names (l : List (Mark × Value)) (seen : List Mark) :
    secondTime seen (l.map fun x => (x.1, renamed N x.2)) = secondTime seen l := by
  induction l generalizing seen with
  | nil => rfl
  | cons x l ih =>
    obtain ⟨m, v⟩ := x
    rw [List.map_cons]
    unfold secondTime
    dsimp only
    rw [ih]

theorem lookup_names (l : List (Mark × Value)) (m : Mark) :
    (l.map fun x => (x.1, renamed N x.2)).lookup m = (l.lookup m).map (renamed N) := by
  induction l with
  | nil => rfl
  | cons x l ih =>
    obtain ⟨k, v⟩ := x
    rw [List.map_cons]
    simp only [List.lookup]
    cases m == k with
    | true => rfl
    | false => exact ih

theorem immortalVerdict_names (l : List (Mark × Value)) (g : Bytes) :
    immortalVerdict (ME := ME) (l.map fun x => (x.1, renamed N x.2)) g = immortalVerdict l g := by
  unfold immortalVerdict
  rw [lookup_names, lookup_names]
  cases l.lookup .era with
  | none => rfl
  | some v =>
    cases v <;> first | (simp only [Option.map, renamed]; done) | skip
    rename_i e
    cases e with
    | mortal => rfl
    | immortal =>
      cases l.lookup .blockHash with
      | none => rfl
      | some w => cases w <;> simp only [Option.map, renamed]

theorem verdict_names (l : List (Mark × Value)) (version : String) (expected : Option Bytes) :
    verdict (ME := ME) (l.map fun x => (x.1, renamed N x.2)) version expected = verdict l version expected := by
  unfold verdict
  rw [secondTime_names, lookup_names, lookup_names]
  simp only [immortalVerdict_names]
  cases secondTime [] l with
  | some m => rfl
  | none =>
    dsimp only
    cases l.lookup .specVersion with
    | none => rfl
    | some v =>
      cases v <;> first | (simp only [Option.map, renamed]; done) | skip
      simp only [Option.map, renamed]
      split
      · cases l.lookup .genesisHash with
        | none => rfl
        | some w => cases w <;> simp only [renamed]
      · rfl

theorem extensionsAs_names {M M' : Metadata ME} (h : RenamedMetadata N M M') (b : Buf) (pos : Nat) (expected : Option Bytes) :
    extensionsAs M' b pos expected =
      match extensionsAs M b pos expected with
      | .ok vs => .ok (renamedAll N vs)
      | .error e => .error e := by
  unfold extensionsAs
  rw [h.extensions, h.version]
  cases hs : M.signedExtensions with
  | error e => cases e <;> rfl
  | ok signed =>
    rw [mapOut_ok.2 rfl, eok_bind, eok_bind, eachAs_names h.types]
    cases eachAs M.types b ((extItems signed).map (·.2)) pos with
    | error e => cases e <;> rfl
    | ok x =>
      obtain ⟨vs, q⟩ := x
      dsimp only
      rw [mapErr_ok.2 rfl, mapErr_ok.2 rfl, eok_bind, eok_bind]
      dsimp only
      split
      · cases mapOut SErr.metaStructure M.specNameVersion with
        | error e => rfl
        | ok spec =>
          rw [eok_bind, eok_bind, counting_names (h.counts signed hs), verdict_names]
          cases verdict (ME := ME) (counting M.types (extItems signed) vs) spec.printedSpecVersion expected <;> rfl
      · rfl

/-- **C79** for `parse_transaction`. -/
theorem transaction_names {M M' : Metadata ME} (h : RenamedMetadata N M M') (b : Buf) (expected : Option Bytes) :
    toldTransaction (parseTransaction M' b expected) =
      renamedTransaction N (toldTransaction (parseTransaction M b expected)) := by
  rw [pieces_transaction, pieces_transaction]
  unfold transactionAs
  cases mark (ME := ME) b with
  | error e => rfl
  | ok m =>
    rw [eok_bind, eok_bind, extensionsAs_names h]
    cases extensionsAs M b m.extensionsStart expected with
    | error e => rfl
    | ok vs =>
      dsimp only
      rw [eok_bind, eok_bind, markedCallAs_names h]
      cases markedCallAs M m with
      | ok c => rfl
      | error e => cases e <;> rfl

/-! ### Instances -/

namespace TxPiecesExample
open Example

/-- The transaction of the examples, in pieces. -/
theorem payload_pieces : transactionAs chain payload (some genesis) = .ok (.ok transfer, extValues 9 genesis) := rfl

example : toldTransaction (parseTransaction chain payload (some genesis)) = .ok (.ok transfer, extValues 9 genesis) :=
  (pieces_transaction chain payload (some genesis)).trans payload_pieces

/-- The extensions of another version. -/
def otherVersion : Buf := Buf.ofBytes ([28] ++ callBytes ++ ([0] ++ [10, 0, 0, 0] ++ genesis ++ genesis))

/-- Another version: this very error. -/
example : toldTransaction (parseTransaction chain otherVersion none) = .error (.err (.wrongSpecVersion "10" "9")) :=
  (pieces_transaction chain otherVersion none).trans rfl

/-- A call that is no call: the extensions are shown, and the error. -/
def spoiledCall : Buf := Buf.ofBytes ([28] ++ [9, 9, 9, 9, 9, 9, 9] ++ ([0] ++ [9, 0, 0, 0] ++ genesis ++ genesis))

example : ∃ e, toldTransaction (parseTransaction chain spoiledCall none) = .ok (.error (.parsing e), extValues 9 genesis) :=
  ⟨_, (pieces_transaction chain spoiledCall none).trans rfl⟩

example : toldUnmarked (parseTransactionUnmarked chain (Buf.ofBytes (callBytes ++ extBytes)) none) =
    .ok (transfer, extValues 9 genesis) :=
  (pieces_transaction_unmarked chain _ none).trans rfl

example := pieces_call chain payload 1

example := pieces_extensions chain payload 8 (some genesis)

example : toldExtrinsic (decodeUncheckedExtrinsic extrinsicChain (Buf.ofBytes signedBytes)) = .ok signedValues :=
  (pieces_extrinsic extrinsicChain (Buf.ofBytes signedBytes)).trans rfl

/-- The values of the extensions, and what they count as. -/
theorem extensions_each : eachAs chain.types payload ((extItems chainExtensions).map (·.2)) 8 =
    .ok (extValues 9 genesis, 77) := rfl

example : counting chain.types (extItems chainExtensions) (extValues 9 genesis) =
    [(.era, .era .immortal), (.specVersion, .uint .u32 9), (.genesisHash, .hash genesis), (.blockHash, .hash genesis)] := rfl

example : Proper chain.types (extItems chainExtensions) (extValues 9 genesis) "9" none :=
  (verdict_proper (ME := Unit) extensions_each "9" none).1 rfl

/-- The metadata of the example with other names in it. -/
def renamedChain : Metadata Unit := { chain with types := .portable (chainTypes.map NamesExample.newTyp) }

theorem chain_renamed : RenamedMetadata NamesExample.names chain renamedChain where
  types := NamesExample.renamedIn chainTypes
  call := rfl
  version := rfl
  extensions := rfl
  counts signed h := by
    cases h
    decide +kernel

example : toldTransaction (parseTransaction renamedChain payload (some genesis)) =
    .ok (.ok ⟨"Balances!", "transfer!", [(some "x", .uint .u8 7), (some "x", .uint .u32 1)]⟩, extValues 9 genesis) :=
  (transaction_names chain_renamed payload (some genesis)).trans
    (by rw [pieces_transaction, payload_pieces]; rfl)

end TxPiecesExample

end Verif
