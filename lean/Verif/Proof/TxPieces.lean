import Verif.Spec.TxPieces
import Verif.Proof.Wallet
import Verif.Proof.Pieces
import Verif.Props.Proper
import Verif.Props.Hints
/-!
# Transactions in pieces (proofs)
-/
namespace Verif
open Spec

variable {ME : Type} {R : Registry} {b : Buf}

/-! ### The call -/

theorem asCall_pdValue {d : PD} {c : Call} (h : d.asCall = some c) :
    pdValue d = .pallet .call c.palletName c.variantName (fdsValue c.fields) := by
  unfold PD.asCall at h
  split at h
  · cases h; rfl
  · cases h

theorem callIn_decoded {id pos q : Nat} {d : ED} (h : decode R b (.symbol id) pos Propagated.new = .ok (d, q)) :
    callIn R id (edValue d) = d.data.asCall.map callOf := by
  obtain ⟨bs, k1, rfl, k3⟩ := (decode_parses R b _ _).sound h
  cases hc : d.data.asCall with
  | some c =>
    obtain ⟨t, us, hr, hd⟩ := (run_call rfl k3 hc).callEnc.1
    have hv : edValue d = .pallet .call c.palletName c.variantName (fdsValue c.fields) := by
      obtain ⟨x, is⟩ := d
      exact asCall_pdValue hc
    rw [hv]
    simp [callIn, enumType, hr, hd, callOf]
  | none =>
    unfold callIn
    split
    · rename_i p n args hv
      split
      · rename_i he
        exfalso
        unfold enumType at he
        split at he
        · rename_i t hr
          split at he
          · rename_i us hd
            obtain ⟨ty, id', g1, g2⟩ := run_iff.1 k3
            obtain ⟨t', ht, g1⟩ := bind_ok.1 g1
            cases g1
            rw [get_ok.1 ht] at hr; cases hr
            cases g2 with
            | pallet _ _ _ _ _ _ =>
              simp only [edValue, pdValue, Value.pallet.injEq] at hv
              obtain ⟨rfl, _⟩ := hv
              cases hc
            | fixed | era | per | perCompact | signature => simp [edValue, pdValue] at hv
            | h256 => unfold h256Data at hv; split at hv <;> simp [edValue, pdValue] at hv
            | ofDef ho h =>
              cases h with
              | composite hd' _ | sequence hd' | array hd' | tuple hd' | primitive hd' | compact hd' | bits hd' =>
                rw [hd] at hd'; cases hd'
              | emptyEnum | enum => simp [edValue, pdValue] at hv
          · cases he
        · cases he
      · rfl
    · rfl

theorem decodeAsCallUnmarked_pieces (M : Metadata ME) (b : Buf) (pos : Nat) :
    callAs M b pos = (match decodeAsCallUnmarked M b pos with
      | .ok (c, q) => .ok (callOf c, q)
      | .error e => .error e) := by
  unfold callAs decodeAsCallUnmarked
  cases mapOut SErr.metaStructure M.callTy with
  | error e => rfl
  | ok id =>
    rw [eok_bind, eok_bind]
    unfold valueAs decodeAsTypeAtPosition
    cases hd : decode M.types b (.symbol id) pos Propagated.new with
    | error e => cases e <;> rfl
    | ok x =>
      obtain ⟨d, q⟩ := x
      have h := callIn_decoded hd
      show (match callIn M.types id (edValue d) with
        | some c => .ok (c, q)
        | none => .error (.err (.notACall id)) : SRes ME (CallOf × Nat)) = _
      rw [h]
      show _ = (match (match d.data.asCall with
        | some call => .ok (call, q)
        | none => .error (.err (.notACall id)) : SRes ME (Call × Nat)) with
      | .ok (c, q) => .ok (callOf c, q)
      | .error e => .error e : SRes ME (CallOf × Nat))
      cases d.data.asCall <;> rfl

theorem decodeAsCall_pieces (M : Metadata ME) (m : Marked) :
    markedCallAs M m = (match decodeAsCall M m with
      | .ok c => .ok (callOf c)
      | .error e => .error e) := by
  unfold markedCallAs decodeAsCall
  cases m.dataNoExtensions (ME := ME) with
  | error e => rfl
  | ok data =>
    rw [eok_bind, eok_bind, decodeAsCallUnmarked_pieces]
    cases decodeAsCallUnmarked M data m.callStart with
    | error e => rfl
    | ok x =>
      obtain ⟨c, q⟩ := x
      dsimp only
      rw [eok_bind, eok_bind]
      dsimp only
      by_cases h : q = m.extensionsStart
      · rw [if_pos h, if_neg (by simpa using h)]
      · rw [if_neg h, if_pos h]

/-! ### The values of the extensions -/

theorem extensionsLoop_pieces (sel : SignedExt → Nat) : ∀ (es : List SignedExt) (pos : Nat),
    (eachAs R b (es.map sel) pos).mapErr .parsing = (match extensionsLoop (ME := ME) R b sel es pos with
      | .ok (ds, q) => .ok (ds.map edValue, q)
      | .error e => .error e : SRes ME (List Value × Nat))
  | [], pos => rfl
  | e :: es, pos => by
    have ih := extensionsLoop_pieces sel es
    rw [List.map_cons]
    unfold eachAs extensionsLoop valueAs decodeAsTypeAtPosition
    have hind := decode_hint_independent (R := R) (b := b) (sel e) pos Propagated.new .none (.fromExtMeta e.identifier)
    have e1 : Propagated.new.withHint .none = Propagated.new := rfl
    have e2 : Propagated.new.withHint (.fromExtMeta e.identifier) = .fromExtMeta e.identifier := rfl
    rw [e1, e2] at hind
    rcases hind with ⟨x, h1, h2⟩ | ⟨d, d', q, h1, h2, h3, _⟩
    · rw [h1, h2]; cases x <;> rfl
    · rw [h1, h2]
      simp only [told]
      rw [mapErr_ok.2 rfl, eok_bind]
      dsimp only
      have := ih q
      cases hl : extensionsLoop (ME := ME) R b sel es q with
      | error x =>
        rw [hl] at this
        dsimp only at this
        cases he : eachAs R b (es.map sel) q with
        | ok y => rw [he] at this; cases this
        | error y => rw [he] at this; exact this
      | ok y =>
        obtain ⟨ds, q'⟩ := y
        rw [hl] at this
        dsimp only at this
        rw [mapErr_ok] at this
        rw [this, eok_bind]
        simp only [List.map_cons, h3]
        rfl

theorem eachAs_append (ids ids' : List Nat) (pos : Nat) : eachAs R b (ids ++ ids') pos =
    (match eachAs R b ids pos with
      | .error e => .error e
      | .ok (vs, q) =>
        match eachAs R b ids' q with
        | .error e => .error e
        | .ok (vs', q') => .ok (vs ++ vs', q')) := by
  induction ids generalizing pos with
  | nil =>
    simp only [List.nil_append, eachAs]
    cases eachAs R b ids' pos <;> rfl
  | cons i ids ih =>
    simp only [List.cons_append, eachAs]
    cases valueAs R b i pos with
    | error e => rfl
    | ok x =>
      obtain ⟨v, q⟩ := x
      simp only [ih q]
      cases eachAs R b ids q with
      | error e => rfl
      | ok y =>
        obtain ⟨vs, q'⟩ := y
        dsimp only
        cases eachAs R b ids' q' with
        | error e => rfl
        | ok z => rfl

/-! ### The checks -/

/-- What is seen of the item: mark and value. -/
def seenMark (e : ED) : Option (Mark × Value) :=
  (lookAt e.data).bind fun x => (markOf x).map fun m => (m, pdValue x)

theorem mark?_shown {item : String × Nat} {is : List Info} {d : ED} {bs : Bytes}
    (hs : Shown R (extLabel item.1) is item.2 d) (he : Enc R false item.2 (edValue d) bs) :
    (mark? R item).map (fun m => (m, edValue d)) = seenMark d := by
  obtain ⟨o, ho⟩ := Option.isSome_iff_exists.1 (Wallet'.markOfItem_total he 0)
  have h1 : mark? R item = o := by unfold mark?; rw [ho]; rfl
  have h2 := fun m => Wallet'.markOfItem_iff ho m
  have h3 := fun m => lookAt_counts hs m
  rw [h1]
  unfold seenMark
  cases o with
  | some m =>
    obtain ⟨x, g1, g2⟩ := (h3 m).2 ((h2 m).2 rfl)
    rw [g1, Option.bind_some, g2, lookAt_value g1]
  | none =>
    cases hl : lookAt d.data with
    | none => rfl
    | some x =>
      rw [Option.bind_some]
      cases hm : markOf x with
      | none => rfl
      | some m => exact absurd ((h2 m).1 ((h3 m).1 ⟨x, hl, hm⟩)) (by simp)

theorem counting_seen : ∀ {items : List (String × Nat)} {ds : List ED} {chunks : List Bytes},
    chunks.length = items.length → ds.length = items.length →
    (∀ x ∈ items.zip (ds.zip chunks), Enc R false x.1.2 (edValue x.2.1) x.2.2 ∧ Shown R (extLabel x.1.1) [] x.1.2 x.2.1) →
    counting R items (ds.map edValue) = ds.filterMap seenMark
  | [], [], _, _, _, _ => rfl
  | [], _ :: _, _, _, h, _ => by cases h
  | _ :: _, [], _, _, h, _ => by cases h
  | _ :: _, _ :: _, [], h, _, _ => by cases h
  | i :: items, d :: ds, c :: chunks, h1, h2, h3 => by
    have ih := counting_seen (items := items) (ds := ds) (chunks := chunks) (by simpa using h1) (by simpa using h2)
      (fun x hx => h3 x (by rw [zip3_cons]; exact List.mem_cons_of_mem _ hx))
    obtain ⟨k1, k2⟩ := h3 (i, d, c) (by rw [zip3_cons]; exact List.mem_cons_self)
    unfold counting at ih ⊢
    rw [List.map_cons, List.zip_cons_cons, List.filterMap_cons, List.filterMap_cons, ih]
    dsimp only
    rw [mark?_shown k2 k1]

/-- What was collected, said with marks. -/
structure Holding (l : List (Mark × Value)) (c : CollectedExt) : Prop where
  spec : l.lookup .specVersion = none ∧ c.specVersionPrinted = none ∨
    ∃ w k, l.lookup .specVersion = some (.uint w k) ∧ c.specVersionPrinted = some (toString k)
  genesis : l.lookup .genesisHash = c.genesisHash.map .hash
  block : l.lookup .blockHash = c.blockHash.map .hash
  era : l.lookup .era = c.era.map .era

theorem lookup_snoc {l : List (Mark × Value)} {m m' : Mark} {v : Value} :
    (l ++ [(m, v)]).lookup m' = (l.lookup m').or (if m' = m then some v else none) := by
  induction l with
  | nil =>
    simp only [List.nil_append, List.lookup]
    by_cases h : m' = m
    · simp [h]
    · have : (m' == m) = false := by simpa using h
      simp [this, h]
  | cons x l ih =>
    obtain ⟨k, w⟩ := x
    simp only [List.cons_append, List.lookup]
    cases m' == k with
    | true => rfl
    | false => exact ih

theorem update_none {c : CollectedExt} {x : PD} (h : markOf x = none) : c.update x = .ok c := by
  unfold CollectedExt.update
  unfold markOf at h
  split at h <;> first | (cases h; done) | skip
  split <;> first | rfl | (exfalso; simp_all; done)

theorem update_some {l : List (Mark × Value)} {c : CollectedExt} {x : PD} {m : Mark} (hc : Holding l c)
    (h : markOf x = some m) : if (l.lookup m).isSome then c.update x = .error (twice m) else
      ∃ c', c.update x = .ok c' ∧ Holding (l ++ [(m, pdValue x)]) c' := by
  obtain ⟨h1, h2, h3, h4⟩ := hc
  unfold markOf at h
  split at h <;> cases h
  · rename_i w k
    rcases h1 with ⟨g1, g2⟩ | ⟨w', k', g1, g2⟩
    · rw [g1, if_neg (by simp)]
      refine ⟨{ c with specVersionPrinted := some (toString k) }, by simp [CollectedExt.update, g2], ?_, ?_, ?_, ?_⟩
      · exact .inr ⟨w, k, by rw [lookup_snoc, g1]; rfl, rfl⟩
      all_goals (rw [lookup_snoc]; simp [h2, h3, h4])
    · rw [g1, if_pos (by simp)]; simp [CollectedExt.update, g2, twice]
  · rename_i g
    rw [h2]
    cases hg : c.genesisHash with
    | none =>
      rw [if_neg (by simp)]
      refine ⟨{ c with genesisHash := some g }, by simp [CollectedExt.update, hg], ?_, ?_, ?_, ?_⟩
      · rcases h1 with ⟨g1, g2⟩ | ⟨w', k', g1, g2⟩
        · exact .inl ⟨by rw [lookup_snoc, g1]; rfl, g2⟩
        · exact .inr ⟨w', k', by rw [lookup_snoc, g1]; rfl, g2⟩
      all_goals (rw [lookup_snoc]; simp [h2, h3, h4, hg, pdValue])
    | some g' => rw [if_pos (by simp)]; simp [CollectedExt.update, hg, twice]
  · rename_i g
    rw [h3]
    cases hg : c.blockHash with
    | none =>
      rw [if_neg (by simp)]
      refine ⟨{ c with blockHash := some g }, by simp [CollectedExt.update, hg], ?_, ?_, ?_, ?_⟩
      · rcases h1 with ⟨g1, g2⟩ | ⟨w', k', g1, g2⟩
        · exact .inl ⟨by rw [lookup_snoc, g1]; rfl, g2⟩
        · exact .inr ⟨w', k', by rw [lookup_snoc, g1]; rfl, g2⟩
      all_goals (rw [lookup_snoc]; simp [h2, h3, h4, hg, pdValue])
    | some g' => rw [if_pos (by simp)]; simp [CollectedExt.update, hg, twice]
  · rename_i g
    rw [h4]
    cases hg : c.era with
    | none =>
      rw [if_neg (by simp)]
      refine ⟨{ c with era := some g }, by simp [CollectedExt.update, hg], ?_, ?_, ?_, ?_⟩
      · rcases h1 with ⟨g1, g2⟩ | ⟨w', k', g1, g2⟩
        · exact .inl ⟨by rw [lookup_snoc, g1]; rfl, g2⟩
        · exact .inr ⟨w', k', by rw [lookup_snoc, g1]; rfl, g2⟩
      all_goals (rw [lookup_snoc]; simp [h2, h3, h4, hg, pdValue])
    | some g' => rw [if_pos (by simp)]; simp [CollectedExt.update, hg, twice]

theorem collectLoop_cons (e : ED) (es : List ED) (c : CollectedExt) : collectLoop (e :: es) c =
    match lookAt e.data with
    | none => collectLoop es c
    | some x =>
      match c.update x with
      | .ok c => collectLoop es c
      | .error e => .error e := by
  have bind_eq : ∀ (r : Except ExtErr CollectedExt), (r >>= collectLoop es) =
      match r with | .ok c => collectLoop es c | .error e => .error e := by
    intro r; cases r <;> rfl
  obtain ⟨d, is⟩ := e
  rw [collectLoop]
  cases d with
  | composite fs =>
    match fs with
    | [] => rfl
    | [f] => exact bind_eq _
    | _ :: _ :: _ => rfl

  | _ => exact bind_eq _

theorem collectLoop_seen : ∀ (exts : List ED) (l : List (Mark × Value)) (c : CollectedExt) (seen : List Mark),
    Holding l c → (∀ m, m ∈ seen ↔ (l.lookup m).isSome) →
    match secondTime seen (exts.filterMap seenMark) with
    | some m => collectLoop exts c = .error (twice m)
    | none => ∃ c', collectLoop exts c = .ok c' ∧ Holding (l ++ exts.filterMap seenMark) c'
  | [], l, c, seen, hc, _ => ⟨c, rfl, by simpa using hc⟩
  | e :: es, l, c, seen, hc, hs => by
    have ih := collectLoop_seen es
    rw [List.filterMap_cons, collectLoop_cons]
    cases hl : lookAt e.data with
    | none =>
      have : seenMark e = none := by unfold seenMark; rw [hl]; rfl
      rw [this]
      exact ih l c seen hc hs
    | some x =>
      cases hm : markOf x with
      | none =>
        have : seenMark e = none := by unfold seenMark; rw [hl, Option.bind_some, hm]; rfl
        rw [this]
        dsimp only
        rw [update_none hm]
        exact ih l c seen hc hs
      | some m =>
        have : seenMark e = some (m, pdValue x) := by unfold seenMark; rw [hl, Option.bind_some, hm]; rfl
        rw [this]
        dsimp only
        have hu := update_some hc hm
        unfold secondTime
        by_cases hin : m ∈ seen
        · rw [if_pos hin]
          rw [if_pos ((hs m).1 hin)] at hu
          rw [hu]
        · rw [if_neg hin]
          rw [if_neg (fun h => hin ((hs m).2 h))] at hu
          obtain ⟨c', g1, g2⟩ := hu
          rw [g1]
          have := ih (l ++ [(m, pdValue x)]) c' (m :: seen) g2 (fun m' => by
            rw [lookup_snoc, List.mem_cons, hs m']
            by_cases h : m' = m
            · simp [h]
            · simp [h])
          rw [List.append_assoc] at this
          exact this

theorem checkExtensions_verdict (exts : List ED) (version : String) (expected : Option Bytes) :
    checkExtensions (ME := ME) exts version expected =
      match verdict (exts.filterMap seenMark) version expected with
      | none => .ok ()
      | some e => .error (.err e) := by
  have h := collectLoop_seen exts [] {} [] ⟨.inl ⟨rfl, rfl⟩, rfl, rfl, rfl⟩ (fun m => by simp)
  unfold checkExtensions verdict
  cases h2 : secondTime [] (exts.filterMap seenMark) with
  | some m => rw [h2] at h; dsimp only at h; rw [h]
  | none =>
    rw [h2] at h
    obtain ⟨c, h1, hspec, hgen, hblock, hera⟩ := h
    rw [List.nil_append] at hspec hgen hblock hera
    rw [h1]
    dsimp only
    unfold checkCollected
    rcases hspec with ⟨g1, g2⟩ | ⟨w, k, g1, g2⟩
    · rw [g1, g2]
    · rw [g1, g2]
      dsimp only
      by_cases hv : toString k = version
      · rw [if_neg (by simpa using hv), if_pos hv, hgen]
        cases hg : c.genesisHash with
        | none => rfl
        | some g =>
          dsimp only [Option.map]
          have him : checkImmortal (ME := ME) c = match immortalVerdict (ME := ME) (exts.filterMap seenMark) g with
              | none => .ok ()
              | some e => .error (.err e) := by
            unfold checkImmortal immortalVerdict
            rw [hera, hblock, hg]
            cases c.era with
            | none => rfl
            | some e =>
              cases e with
              | mortal => rfl
              | immortal =>
                cases c.blockHash with
                | none => rfl
                | some x =>
                  dsimp only [Option.map]
                  by_cases hx : x = g
                  · rw [if_pos hx, if_neg (fun h => h hx.symm)]
                  · rw [if_neg hx, if_pos (fun h => hx h.symm)]
          cases expected with
          | none => exact him
          | some e =>
            dsimp only
            by_cases he : g = e
            · rw [if_neg (by simpa using he), if_pos he]; exact him
            · rw [if_pos he, if_neg he]
      · rw [if_pos hv, if_neg hv]

theorem decodeExtensionsUnmarked_pieces (M : Metadata ME) (b : Buf) (pos : Nat) (expected : Option Bytes) :
    extensionsAs M b pos expected = (match decodeExtensionsUnmarked M b pos expected with
      | .ok l => .ok (l.map edValue)
      | .error e => .error e) := by
  unfold extensionsAs decodeExtensionsUnmarked
  cases mapOut SErr.metaStructure M.signedExtensions with
  | error e => rfl
  | ok signed =>
    rw [eok_bind, eok_bind]
    have hl1 := extensionsLoop_pieces (ME := ME) (R := M.types) (b := b) (·.ty) signed pos
    have hids : (extItems signed).map (·.2) = signed.map (·.ty) ++ signed.map (·.additionalSigned) := by
      simp [extItems, Function.comp_def]
    rw [hids, eachAs_append]
    cases h1 : extensionsLoop (ME := ME) M.types b (·.ty) signed pos with
    | error e =>
      rw [h1] at hl1
      dsimp only at hl1
      cases he : eachAs M.types b (signed.map (·.ty)) pos with
      | ok y => rw [he] at hl1; cases hl1
      | error y => rw [he] at hl1; dsimp only; rw [hl1]; rfl
    | ok x =>
      obtain ⟨ds, q⟩ := x
      rw [h1] at hl1
      dsimp only at hl1
      rw [mapErr_ok] at hl1
      rw [hl1, eok_bind]
      dsimp only
      have hl2 := extensionsLoop_pieces (ME := ME) (R := M.types) (b := b) (·.additionalSigned) signed q
      cases h2 : extensionsLoop (ME := ME) M.types b (·.additionalSigned) signed q with
      | error e =>
        rw [h2] at hl2
        dsimp only at hl2
        cases he : eachAs M.types b (signed.map (·.additionalSigned)) q with
        | ok y => rw [he] at hl2; cases hl2
        | error y => rw [he] at hl2; dsimp only; rw [hl2]; rfl
      | ok x =>
        obtain ⟨ds', q'⟩ := x
        rw [h2] at hl2
        dsimp only at hl2
        rw [mapErr_ok] at hl2
        rw [hl2, eok_bind]
        dsimp only
        rw [mapErr_ok.2 rfl, eok_bind]
        dsimp only
        by_cases hq : q' = b.len
        · rw [if_pos hq, if_neg (by simpa using hq)]
          cases mapOut SErr.metaStructure M.specNameVersion with
          | error e => rfl
          | ok spec =>
            rw [eok_bind, eok_bind, checkExtensions_verdict]
            have hc : counting M.types (extItems signed) (ds.map edValue ++ ds'.map edValue) =
                (ds ++ ds').filterMap seenMark := by
              obtain ⟨_, _, _, c1, _, k1, k2, k3⟩ := extensionsLoop_sound h1
              obtain ⟨_, _, _, c2, _, l1, l2, l3⟩ := extensionsLoop_sound h2
              have := counting_seen k1 k2 k3
              have := counting_seen l1 l2 l3
              unfold counting extItems at *
              rw [List.zip_append (by simp at k1 k2 ⊢; omega), List.filterMap_append, List.filterMap_append]
              congr 1
            rw [hc]
            cases verdict (ME := ME) ((ds ++ ds').filterMap seenMark) spec.printedSpecVersion expected with
            | none => simp only [eok_bind, List.map_append]
            | some e => rfl
        · rw [if_neg hq, if_pos hq]

end Verif
