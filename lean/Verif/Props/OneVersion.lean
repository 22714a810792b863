import Verif.Spec.OneVersion
import Verif.Props.Renaming
import Verif.Props.Shift
/-!
# C71: a transaction fits one version and one chain

When the metadata of the right version are not known, those at hand are tried one after
another, or the error tells which version is needed.
-/
namespace Verif
open Spec

variable {ME : Type} {M M' : Metadata ME} {b : Buf} {f : Nat → Nat}

theorem mapOut_fine {ε ε' α : Type} {x : Except (Out ε) α} {h : ε → ε'} {a : α} (hx : x = .ok a) : mapOut h x = .ok a := by
  rw [hx]; rfl

/-- What `check_extensions` finds does not depend on what it is compared with. -/
theorem checkExtensions_accepted {exts : List ED} {version : String} {g : Option Bytes} {u : Unit}
    (h : checkExtensions (ME := ME) exts version g = .ok u) :
    ∃ c hash, collectLoop exts {} = .ok c ∧ c.specVersionPrinted = some version ∧ c.genesisHash = some hash ∧
      (∀ x, g = some x → x = hash) ∧ checkImmortal (ME := ME) c = .ok u := by
  unfold checkExtensions at h
  cases hc : collectLoop exts {} with
  | error e => rw [hc] at h; cases h
  | ok c =>
    rw [hc] at h
    dsimp only at h
    unfold checkCollected at h
    cases hv : c.specVersionPrinted with
    | none => rw [hv] at h; cases h
    | some found =>
      rw [hv] at h
      dsimp only at h
      split at h
      · cases h
      · rename_i hne
        have hf : found = version := Classical.byContradiction hne
        subst hf
        cases hg : c.genesisHash with
        | none => rw [hg] at h; cases h
        | some hash =>
          rw [hg] at h
          dsimp only at h
          refine ⟨c, hash, rfl, hv, hg, ?_, ?_⟩
          · intro x hx
            subst hx
            dsimp only at h
            split at h
            · cases h
            · rename_i hn; exact (Classical.byContradiction hn : hash = x).symm
          · cases g with
            | none => exact h
            | some x =>
              dsimp only at h
              split at h
              · cases h
              · exact h

/-- Other extensions data of the same transaction, in metadata of another version. -/
theorem extensions_otherVersion (hs : SameExtensions f M M') {pos : Nat} {g g' : Option Bytes} {exts : List ED}
    (h : decodeExtensionsUnmarked M b pos g = .ok exts) {v v' : SpecNameVersion} (hv : M.specNameVersion = .ok v)
    (hv' : M'.specNameVersion = .ok v') (hne : v'.printedSpecVersion ≠ v.printedSpecVersion) :
    decodeExtensionsUnmarked M' b pos g' =
      .error (.err (.wrongSpecVersion v.printedSpecVersion v'.printedSpecVersion)) := by
  obtain ⟨es, h1, h2, h3⟩ := hs
  -- the first metadata, as far as extensions are concerned, with the types of the second
  let N : Metadata ME := { M' with specNameVersion := M.specNameVersion, callTy := .error .panic }
  have hren : RenumberedMeta f id { M with callTy := .error .panic } N :=
    { version := by show M.specNameVersion = moved id id M.specNameVersion; rw [hv]; rfl
      call := rfl
      callTypes := by intro id hid; cases hid
      extensions := by show M'.signedExtensions = moved id _ M.signedExtensions; rw [h1, h2]; rfl
      extTypes := by
        intro es' hes e he
        have hes : M.signedExtensions = .ok es' := hes
        rw [h1] at hes
        cases hes
        exact h3 e he }
  have hN : decodeExtensionsUnmarked N b pos g = .ok exts := by
    have := decodeExtensionsUnmarked_renumbered hren b pos g
    rw [show decodeExtensionsUnmarked { M with callTy := .error .panic } b pos g = decodeExtensionsUnmarked M b pos g
      from rfl, h] at this
    exact this
  have hNe : N.signedExtensions = .ok (es.map (renExt f)) := h2
  have hNv : N.specNameVersion = .ok v := hv
  unfold decodeExtensionsUnmarked at hN ⊢
  rw [mapOut_fine hNe, eok_bind] at hN
  rw [mapOut_fine h2, eok_bind]
  obtain ⟨⟨first, q⟩, k1, hN⟩ := ebind_ok.1 hN
  have k1 : extensionsLoop M'.types b (·.ty) (es.map (renExt f)) pos = .ok (first, q) := k1
  rw [k1, eok_bind]
  obtain ⟨⟨second, q'⟩, k2, hN⟩ := ebind_ok.1 hN
  have k2 : extensionsLoop M'.types b (·.additionalSigned) (es.map (renExt f)) q = .ok (second, q') := k2
  dsimp only
  rw [k2, eok_bind]
  dsimp only at hN ⊢
  split at hN
  · cases hN
  · rename_i hq
    rw [if_neg hq, mapOut_fine hv', eok_bind]
    rw [mapOut_fine hNv, eok_bind] at hN
    obtain ⟨u, k3, hN⟩ := ebind_ok.1 hN
    obtain ⟨c, hash, c1, c2, c3, _⟩ := checkExtensions_accepted k3
    have : checkExtensions (ME := ME) (first ++ second) v'.printedSpecVersion g' =
        .error (.err (.wrongSpecVersion v.printedSpecVersion v'.printedSpecVersion)) := by
      unfold checkExtensions
      rw [c1]
      simp only [checkCollected, c2]
      rw [if_pos (Ne.symm hne)]
    rw [this]; rfl

/-- **C71.** A transaction that parses with metadata of one version is refused with metadata of any
other version that has the same extensions, whatever calls that version has: the error tells the
version that is needed and the one at hand. -/
theorem transaction_otherVersion (hs : SameExtensions f M M') {g g' : Option Bytes} {r : TransactionParsed ME}
    (h : parseTransaction M b g = .ok r) {v v' : SpecNameVersion} (hv : M.specNameVersion = .ok v)
    (hv' : M'.specNameVersion = .ok v') (hne : v'.printedSpecVersion ≠ v.printedSpecVersion) :
    parseTransaction M' b g' = .error (.err (.wrongSpecVersion v.printedSpecVersion v'.printedSpecVersion)) := by
  obtain ⟨m, h1, h2, _⟩ := parseTransaction_iff.1 h
  unfold parseTransaction
  rw [h1, eok_bind]
  unfold decodeExtensions at h2 ⊢
  rw [extensions_otherVersion hs h2 hv hv' hne]
  rfl

/-- **C71.** So of all metadata with the same extensions, those that accept a transaction are of one
version. -/
theorem transaction_oneVersion (hs : SameExtensions f M M') {g g' : Option Bytes} {r r' : TransactionParsed ME}
    (h : parseTransaction M b g = .ok r) (h' : parseTransaction M' b g' = .ok r') :
    ∃ v v', M.specNameVersion = .ok v ∧ M'.specNameVersion = .ok v' ∧ v'.printedSpecVersion = v.printedSpecVersion := by
  have key : ∀ {N : Metadata ME} {gg : Option Bytes} {rr : TransactionParsed ME}, parseTransaction N b gg = .ok rr →
      ∃ v, N.specNameVersion = .ok v := by
    intro N gg rr hh
    obtain ⟨m, _, h2, _⟩ := parseTransaction_iff.1 hh
    unfold decodeExtensions decodeExtensionsUnmarked at h2
    obtain ⟨es, _, h2⟩ := ebind_ok.1 h2
    obtain ⟨x, _, h2⟩ := ebind_ok.1 h2
    obtain ⟨y, _, h2⟩ := ebind_ok.1 h2
    dsimp only at h2
    split at h2
    · cases h2
    · obtain ⟨v, hv, _⟩ := ebind_ok.1 h2
      exact ⟨v, mapOut_ok.1 hv⟩
  obtain ⟨v, hv⟩ := key h
  obtain ⟨v', hv'⟩ := key h'
  refine ⟨v, v', hv, hv', Classical.byContradiction fun hne => ?_⟩
  rw [transaction_otherVersion hs h hv hv' hne] at h'
  cases h'

/-- **C71** for unmarked transactions, if the call ends at the same byte in both versions. -/
theorem unmarked_otherVersion (hs : SameExtensions f M M') {g g' : Option Bytes} {r : TransactionUnmarkedParsed}
    (h : parseTransactionUnmarked M b g = .ok r) {q : Nat} {c c' : Call} (hc : decodeAsCallUnmarked M b 0 = .ok (c, q))
    (hc' : decodeAsCallUnmarked M' b 0 = .ok (c', q)) {v v' : SpecNameVersion} (hv : M.specNameVersion = .ok v)
    (hv' : M'.specNameVersion = .ok v') (hne : v'.printedSpecVersion ≠ v.printedSpecVersion) :
    parseTransactionUnmarked M' b g' = .error (.err (.wrongSpecVersion v.printedSpecVersion v'.printedSpecVersion)) := by
  unfold parseTransactionUnmarked at h ⊢
  rw [hc, eok_bind] at h
  obtain ⟨exts, h2, _⟩ := ebind_ok.1 h
  rw [hc', eok_bind]
  dsimp only
  rw [extensions_otherVersion hs h2 hv hv' hne]
  rfl

/-! ### One chain -/

/-- The extensions of a transaction with another expected genesis hash, or none. -/
theorem extensions_genesis {pos : Nat} {g : Option Bytes} {exts : List ED}
    (h : decodeExtensionsUnmarked M b pos g = .ok exts) :
    ∃ hash, (∀ x, g = some x → x = hash) ∧ decodeExtensionsUnmarked M b pos none = .ok exts ∧
      decodeExtensionsUnmarked M b pos (some hash) = .ok exts ∧
      ∀ x, x ≠ hash → decodeExtensionsUnmarked M b pos (some x) = .error (.err (.wrongGenesisHash hash x)) := by
  unfold decodeExtensionsUnmarked at h ⊢
  obtain ⟨es, h1, h⟩ := ebind_ok.1 h
  rw [h1]
  simp only [eok_bind]
  obtain ⟨⟨first, q⟩, k1, h⟩ := ebind_ok.1 h
  rw [k1]
  simp only [eok_bind]
  obtain ⟨⟨second, q'⟩, k2, h⟩ := ebind_ok.1 h
  rw [k2]
  simp only [eok_bind]
  dsimp only at h
  split at h
  · cases h
  · rename_i hq
    simp only [if_neg hq]
    obtain ⟨v, k4, h⟩ := ebind_ok.1 h
    obtain ⟨u, k3, h⟩ := ebind_ok.1 h
    cases h
    rw [k4]
    simp only [eok_bind]
    obtain ⟨c, hash, c1, c2, c3, c4, c5⟩ := checkExtensions_accepted k3
    refine ⟨hash, c4, ?_, ?_, ?_⟩
    · simp only [checkExtensions, c1, checkCollected, c2, c3, ne_eq, not_true_eq_false, if_false, c5, eok_bind]
    · simp only [checkExtensions, c1, checkCollected, c2, c3, ne_eq, not_true_eq_false, if_false, c5, eok_bind]
    · intro x hx
      simp only [checkExtensions, c1, checkCollected, c2, c3, ne_eq, not_true_eq_false, if_false, Ne.symm hx,
        not_false_eq_true, if_true, eerror_bind]

/-- **C71.** A transaction that parses is for one chain: there is one genesis hash with which it is
accepted, and with every other expected hash it is refused, and the error tells both hashes. -/
theorem transaction_oneChain {g : Option Bytes} {r : TransactionParsed ME} (h : parseTransaction M b g = .ok r) :
    ∃ hash, (∀ x, g = some x → x = hash) ∧ parseTransaction M b none = .ok r ∧
      parseTransaction M b (some hash) = .ok r ∧
      ∀ x, x ≠ hash → parseTransaction M b (some x) = .error (.err (.wrongGenesisHash hash x)) := by
  obtain ⟨m, h1, h2, h3⟩ := parseTransaction_iff.1 h
  unfold decodeExtensions at h2
  obtain ⟨hash, k1, k2, k3, k4⟩ := extensions_genesis h2
  refine ⟨hash, k1, parseTransaction_iff.2 ⟨m, h1, k2, h3⟩, parseTransaction_iff.2 ⟨m, h1, k3, h3⟩, fun x hx => ?_⟩
  unfold parseTransaction
  rw [h1, eok_bind]
  unfold decodeExtensions
  rw [k4 x hx]; rfl

/-- **C71** for unmarked transactions. -/
theorem unmarked_oneChain {g : Option Bytes} {r : TransactionUnmarkedParsed}
    (h : parseTransactionUnmarked M b g = .ok r) :
    ∃ hash, (∀ x, g = some x → x = hash) ∧ parseTransactionUnmarked M b none = .ok r ∧
      parseTransactionUnmarked M b (some hash) = .ok r ∧
      ∀ x, x ≠ hash → parseTransactionUnmarked M b (some x) = .error (.err (.wrongGenesisHash hash x)) := by
  unfold parseTransactionUnmarked at h ⊢
  obtain ⟨⟨c, q⟩, h1, h⟩ := ebind_ok.1 h
  obtain ⟨exts, h2, h⟩ := ebind_ok.1 h
  obtain ⟨hash, k1, k2, k3, k4⟩ := extensions_genesis h2
  rw [h1]
  simp only [eok_bind]
  refine ⟨hash, k1, ?_, ?_, fun x hx => ?_⟩
  · rw [k2]; exact h
  · rw [k3]; exact h
  · rw [k4 x hx]; rfl

/-! ### Examples -/

/-- Metadata of another version of the chain: other calls, the same extensions. -/
def nextVersion : Metadata Unit := { Example.chain with specNameVersion := .ok ⟨"10", "x"⟩, callTy := .ok 0 }

theorem nextVersion_same : SameExtensions id Example.chain nextVersion := by
  refine ⟨_, rfl, ?_, fun e _ => ?_⟩
  · show nextVersion.signedExtensions = _
    rfl
  · have : ∀ id, Renumbered (fun x => x) Example.chain.types nextVersion.types id := fun id =>
      { inj := fun _ _ _ _ h => h
        same := fun x _ => by
          show SameEntry _ (Example.chain.types.resolve x) (Example.chain.types.resolve x)
          have hv : ∀ vs : List Variant, vs.map (renVariant fun x => x) = vs := by
            intro vs; induction vs with
            | nil => rfl
            | cons v vs ih =>
              rw [List.map_cons, ih]
              obtain ⟨_, fs, _, _⟩ := v
              simp only [renVariant, List.cons.injEq, Variant.mk.injEq, and_true, true_and]
              exact List.map_id fs
          cases Example.chain.types.resolve x with
          | ok t =>
            refine ⟨rfl, rfl, ?_⟩
            cases t.typeDef with
            | composite fs => exact congrArg TypeDef.composite (List.map_id fs).symm
            | variant vs => exact congrArg TypeDef.variant (hv vs).symm
            | tuple ids => exact congrArg TypeDef.tuple (List.map_id ids).symm
            | _ => rfl
          | error e =>
            cases e with
            | external => rfl
            | internal e => cases e <;> rfl }
    exact ⟨this _, this _⟩

example : (parseTransaction Example.chain Example.payload none).toOption.isSome = true ∧
    parseTransaction nextVersion Example.payload none = .error (.err (.wrongSpecVersion "9" "10")) :=
  ⟨rfl, rfl⟩

end Verif
