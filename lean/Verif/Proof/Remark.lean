import Verif.Proof.PolkadotScreen
import Verif.Spec.Remark
/-!
# Lists of bytes, remarks
-/
namespace Verif.Layout
open Spec Verif.Westend

variable {ts : List Typ} {h : Hint} {is : List Info} {d : ED} {v : Value} {bs : Bytes}

theorem byteList_iff {id elem : Nat} {path : List String} {epath : List String} (h : has ts id path (.sequence elem) = true)
    (hs : Check.structural path = true) (he : has ts elem epath (.primitive .u8) = true) (hes : Check.structural epath = true) :
    Enc (.portable ts) false id v bs ↔ ∃ l : Bytes, l.length < 2 ^ 32 ∧ v = bytesValue l ∧ bs = compactEncode l.length ++ l := by
  obtain ⟨t, hr, rfl, hd⟩ := has_type h
  have hk : Known (.portable ts) elem := by
    obtain ⟨t', hr', -, hd'⟩ := has_type he
    exact ⟨false, t', elem, 0, .stop hr' fun _ => ⟨fun f => by rw [hd']; simp, fun i => by rw [hd']; simp⟩⟩
  rw [enc_as hr, encAs_structural (Wallet'.structural_iff.1 hs)]
  unfold EncDef
  rw [hd]
  simp only [primitive_iff he hes, prim_u8]
  constructor
  · rintro ⟨-, -, ps, hl, hp, rfl, rfl⟩
    have key : ∀ ps : Parts, (∀ x ∈ ps, ∃ y : UInt8, x.1 = .uint .u8 y.toNat ∧ x.2 = [y]) →
        ps.values = ps.bytes.map (fun x => .uint .u8 x.toNat) ∧ ps.bytes.length = ps.length := by
      intro ps
      induction ps with
      | nil => intro _; exact ⟨rfl, rfl⟩
      | cons a l ih =>
        intro hp
        obtain ⟨y, h1, h2⟩ := hp a (by simp)
        obtain ⟨i1, i2⟩ := ih fun x hx => hp x (by simp [hx])
        simp only [Parts.values, Parts.bytes, List.map_cons, List.flatMap_cons, h1, h2] at i1 i2 ⊢
        constructor
        · simp [i1]
        · simp [i2]
    obtain ⟨e1, e2⟩ := key ps hp
    exact ⟨ps.bytes, by omega, by rw [bytesValue, e1], by rw [e2]⟩
  · rintro ⟨l, hl, rfl, rfl⟩
    refine ⟨trivial, hk, l.map fun x => (.uint .u8 x.toNat, [x]), by simpa using hl, ?_, ?_, ?_⟩
    · intro x hx
      obtain ⟨y, -, rfl⟩ := List.mem_map.1 hx
      exact ⟨y, rfl, rfl⟩
    · simp [bytesValue, Parts.values]
    · simp only [Parts.bytes, List.flatMap_map, List.length_map]
      congr 1
      clear hl
      induction l with
      | nil => rfl
      | cons a l ih => rw [List.flatMap_cons, ← ih]; rfl

/-- The tree of a list of bytes. -/
theorem byteList_shown {id elem : Nat} (ht : Layout.has ts id [] (.sequence elem) = true)
    (he : Layout.has ts elem [] (.primitive .u8) = true) (hd : Shown (.portable ts) h is id d) (hv : edValue d = bytesValue bs) :
    ∃ is', d.data = (if bs = [] then .sequenceRaw is' [] else .sequence is' (.uints .u8 (bs.map UInt8.toNat))) := by
  obtain ⟨t, hr, hp, hd'⟩ := Layout.has_type ht
  obtain ⟨h', is', core, es, hpeel, hes, hor⟩ := inv_list hd hr (by rw [hp]; exact Wallet'.structural_iff.1 (by decide)) (.inl hd')
  obtain ⟨te, hre, hpe, hde⟩ := Layout.has_type he
  have hstop : h' = .none ∧ core = elem := by
    cases hpeel with
    | stop => exact ⟨rfl, rfl⟩
    | struct r1 _ r3 => cases hre.symm.trans r1; rw [hde] at r3; cases r3
    | compact r1 _ r3 => cases hre.symm.trans r1; rw [hde] at r3; cases r3
  obtain ⟨rfl, rfl⟩ := hstop
  have key : ∀ es : List ED, (∀ e ∈ es, Shown (.portable ts) .none [] core e) →
      ∃ l : List Nat, es.map (·.data) = l.map (fun v => .uint .u8 v .none) := by
    intro es
    induction es with
    | nil => intro _; exact ⟨[], rfl⟩
    | cons a es ih =>
      intro hh
      obtain ⟨l, hl⟩ := ih fun e he => hh e (by simp [he])
      obtain ⟨t', -, e', hsd⟩ := shown_has he (by decide) (hh a (by simp))
      unfold ShownDef at hsd
      rw [e'] at hsd
      obtain ⟨w, v, hw, hdata⟩ | hno := hsd
      · cases hw
        exact ⟨v :: l, by simp [hl, hdata, uintLabel]⟩
      · exact absurd .u8 (hno .u8)
  obtain ⟨l, hl⟩ := key es hes
  rw [hl] at hor
  refine ⟨is', ?_⟩
  by_cases hlne : l = []
  · subst hlne
    rcases hor with ⟨-, e⟩ | ⟨s, hc, -⟩
    · rw [edValue_of e] at hv
      have hv : Value.seq [] = bytesValue bs := hv
      unfold bytesValue at hv
      injection hv with hv
      rw [if_pos (List.map_eq_nil_iff.1 hv.symm)]
      exact e
    · exact absurd hc collected_nil
  · rcases hor with ⟨hc, -⟩ | ⟨s, hc, e⟩
    · exact absurd (.uints hlne) (hc _)
    · obtain rfl := collected_unique hc (.uints hlne)
      rw [e]
      rw [edValue_of e] at hv
      have hv' : Value.seq (l.map fun v => .uint .u8 v) = Value.seq (bs.map fun x => .uint .u8 x.toNat) := hv
      injection hv' with hv'
      have hl := toNats hv'
      rw [if_neg (by rintro rfl; exact hlne hl), hl]

end Verif.Layout

namespace Verif.Polkadot
open Spec Spec.Polkadot Verif.Westend Verif.Layout
open Spec.Westend (screen)

variable {h : Hint} {is : List Info} {d : ED} {P : Printers} {specs : ShortSpecs} {name : String}
  {showBits : BitStore → BitOrder → List Bool → String} {bs message : Bytes}

theorem message_iff {v : Value} : Enc registry false 14 v bs ↔
    ∃ l : Bytes, l.length < 2 ^ 32 ∧ v = bytesValue l ∧ bs = compactEncode l.length ++ l :=
  byteList_iff (path := []) (elem := 2) (epath := []) (by decide +kernel) (by decide) (by decide +kernel) (by decide)

/-- The pallet and the call. -/
def systemVariant : Variant := ⟨"System", [⟨none, 94, some "self::sp_api_hidden_includes_construct_runtime::hidden_include::dispatch\n::CallableCallFor<System, Runtime>", []⟩], 0, []⟩
/-- The call. -/
def remarkVariant : Variant := ⟨"remark", [⟨some "remark", 14, some "Vec<u8>", []⟩], 0, []⟩

theorem system_variant : Layout.variantOf types 93 "System" = some systemVariant := by decide +kernel
theorem remark_variant : Layout.variantOf types 94 "remark" = some remarkVariant := by decide +kernel

theorem bytesValue_inj {a b : Bytes} (h : bytesValue a = bytesValue b) : a = b := by
  unfold bytesValue at h
  injection h with h
  have h := toNats (l := a.map UInt8.toNat) (bs := b) (by rw [List.map_map]; exact h)
  exact (List.map_inj_right fun _ _ => UInt8.toNat_inj.1).1 h

theorem remark_iff : CallEnc registry 93 (remark message) bs ↔ message.length < 2 ^ 32 ∧ bs = remarkCall message := by
  unfold remark
  rw [call_iff namesDistinct indicesDistinct system_variant rfl remark_variant (by decide +kernel) (by decide +kernel)]
  constructor
  · rintro ⟨ps, hl, he, ha, rfl⟩
    obtain ⟨⟨v, b⟩, rfl⟩ := one_length hl
    simp only [remarkVariant, Parts.named, Parts.values, List.map_cons, List.map_nil, List.zip_cons_cons, List.zip_nil_right, List.cons.injEq,
      Prod.mk.injEq, true_and, and_true] at ha
    subst ha
    have e1 : Enc registry false 14 (bytesValue message) b := he (14, _, b) (by simp [remarkVariant, bytesValue])
    obtain ⟨l, h1, h2, rfl⟩ := message_iff.1 e1
    obtain rfl := bytesValue_inj h2
    exact ⟨h1, by simp [remarkCall, Parts.bytes, systemVariant, remarkVariant]⟩
  · rintro ⟨h1, rfl⟩
    refine ⟨[(bytesValue message, compactEncode message.length ++ message)], rfl, ?_, rfl, by simp [remarkCall, Parts.bytes, systemVariant, remarkVariant]⟩
    simp only [remarkVariant, List.map_cons, List.map_nil, List.zip_cons_cons, List.zip_nil_right, List.forall_mem_cons, List.not_mem_nil,
      false_implies, implies_true, and_true]
    exact message_iff.2 ⟨_, h1, rfl, rfl⟩

/-- The tree of a remark. -/
theorem remark_shown {k : Call} {info : List Info} (hs : Shown registry .none [] 93 ⟨k.toPD, info⟩) (hk : callOf k = remark message) :
    ∃ (tn : Option String) (docs : String) (i is' : List Info), k.fields = [⟨some "remark", tn, docs,
      ⟨if message = [] then .sequenceRaw is' [] else .sequence is' (.uints .u8 (message.map UInt8.toNat)), i⟩⟩] := by
  obtain ⟨t, vs, hr, hd, hm, hn⟩ := Layout.variantOf_some system_variant
  have hp : special t.path = some (.pallet .call) := by
    obtain ⟨t', hr', h⟩ := isA_type (ts := types) (id := 93) (s := some (.pallet .call)) (by decide +kernel)
    cases hr.symm.trans hr'
    exact h
  have hs := (shownAs_structural (by unfold Structural; rw [hp]; trivial)).1 (shown_as hr hs)
  unfold callOf remark at hk
  injection hk with k1 k2 k3
  unfold ShownDef at hs
  rw [hd] at hs
  dsimp only [Call.toPD] at hs
  rcases hs with e | ⟨v, docs, ds, h1, e, -⟩ | ⟨_, bs, e⟩ | ⟨t', inner, w, v, f, item, docs, info', ds, h1, h2, h3, h4, h5, e, h6, h7, h8⟩
  · cases e
  · cases e
  · cases e
  · injection e with e1 e2 e3 e4 e5 e6
    have hw := Layout.variantOf_only namesDistinct system_variant hr hd h1 (e4.symm.trans k1)
    subst hw
    cases h2
    have hv := Layout.variantOf_only namesDistinct remark_variant h3 h4 h5 (e5.symm.trans k2)
    subst hv
    subst e6
    obtain ⟨⟨fn, tn, docs1, ⟨data, i⟩⟩, hf⟩ := list1 h6
    rw [hf] at h7 h8 k3 ⊢
    simp only [remarkVariant, List.zip_cons_cons, List.zip_nil_right, List.forall_mem_cons, List.not_mem_nil, false_implies, implies_true,
      and_true] at h7 h8
    obtain ⟨rfl, -, -⟩ := h7
    rw [fdsValue_one] at k3
    simp only [List.cons.injEq, Prod.mk.injEq, true_and, and_true] at k3
    obtain ⟨is', ea⟩ := byteList_shown (ts := types) (elem := 2) (bs := message) (by decide +kernel) (by decide +kernel) h8 k3
    dsimp only at ea
    subst ea
    exact ⟨tn, docs1, i, is', rfl⟩

theorem remark_lines {k : Call} {info : List Info} (hs : Shown registry .none [] 93 ⟨k.toPD, info⟩) (hk : callOf k = remark message) :
    screen showBits (k.card P specs name 0) = remarkScreen message := by
  obtain ⟨tn, docs, i, is', hf⟩ := remark_shown hs hk
  unfold callOf remark at hk
  injection hk with k1 k2 k3
  unfold Call.card Call.toPD
  rw [hf, k1, k2, PD.card]
  have hnat : natBytes (message.map UInt8.toNat) = message := by
    unfold natBytes
    rw [List.map_map]
    exact (List.map_congr_left fun x _ => UInt8.ofNat_toNat).trans (List.map_id' message)
  unfold remarkScreen messageLine
  split
  · simp only [singleUnnamed, Option.isNone_some, Bool.false_eq_true, if_false, cardFieldSet, FD.cardInSet, ED.card, PD.card, cardElements, List.append_nil, screen, List.map_cons,
      List.map_nil, ExtendedCard.show, ParserCard.line, List.length_nil]
    rfl
  · simp only [singleUnnamed, Option.isNone_some, Bool.false_eq_true, if_false, cardFieldSet, FD.cardInSet, ED.card, PD.card, sequenceCards, sequenceU8Card,
      List.append_nil, screen, List.map_cons, List.map_nil, hnat]
    cases stringFromUtf8 message with
    | none =>
      simp only [ExtendedCard.show, ParserCard.line]
      rw [line_at (0 + 2 + 1) "Sequence u8" _ "      Sequence u8: " (by decide)]
      rfl
    | some text =>
      simp only [ExtendedCard.show, ParserCard.line]
      rw [line_at (0 + 2 + 1) "Text" _ "      Text: " (by decide)]
      rfl

end Verif.Polkadot
