import Verif.Spec.Shown
import Verif.Proof.Sound
/-!
The decoded tree is rightly annotated.
-/
namespace Verif
open Spec

variable {R : Registry} {Q : Rel}

/-! ### Labels -/

theorem fieldLabel_eq (f : Field) : Hint.fromField f = fieldLabel f := by
  obtain ⟨name, ty, typeName, docs⟩ := f
  unfold Hint.fromField fieldLabel Hint.fromFieldName nonceIdSet specVersionIdSet specNameIdSet
    txVersionIdSet balanceIdSet
  simp only
  cases name with
  | none => cases typeName <;> simp
  | some n =>
    by_cases h1 : n = "nonce"
    · subst h1; simp
    by_cases h2 : n = "spec_version"
    · subst h2; simp
    by_cases h3 : n = "spec_name"
    · subst h3; simp
    by_cases h4 : n = "tx_version"
    · subst h4; simp
    by_cases h5 : n = "transaction_version"
    · subst h5; simp
    cases typeName <;> simp [h1, h2, h3, h4, h5]

theorem pathLabel_eq (t : Typ) : Hint.fromPath t = pathLabel t := by
  unfold Hint.fromPath pathLabel Typ.ident
  cases t.path.getLast? with
  | none => simp
  | some a => simp

theorem uintLabel_eq (h : Hint) : h.unsignedInteger = uintLabel h := by cases h <;> rfl
theorem textLabel_eq (h : Hint) : h.string = textLabel h := by cases h <;> rfl
theorem labelledHash_eq (h : Hint) (bs : Bytes) : h256Data h.hash256 bs = labelledHash h bs := by
  cases h <;> rfl

theorem hintFromField_eq (c : Checker) (f : Field) :
    (c.hintFromField f).specialtySet.hint = first c.specialtySet.hint (fieldLabel f) := by
  unfold Checker.hintFromField first
  rw [← fieldLabel_eq]
  cases hh : c.specialtySet.hint <;> simp [hh]

theorem updateFromPath_hint (s : SpecialtySet) (t : Typ) :
    (s.updateFromPath t).hint = first s.hint (pathLabel t) := by
  unfold SpecialtySet.updateFromPath first
  rw [← pathLabel_eq]
  cases hh : s.hint <;> simp [hh]

theorem fieldsChecker_hint (n : Nat) (c : Checker) :
    (fieldsChecker n c).specialtySet.hint = handed n c.specialtySet.hint := by
  unfold fieldsChecker handed Checker.forgetHint SpecialtySet.forgetHint
  by_cases hn : 1 < n
  · rw [if_pos hn]
    have hn' : 2 ≤ n := hn
    cases hh : c.specialtySet.hint <;> simp [hh, hn']
  · rw [if_neg hn, if_neg (by omega)]

theorem addInfo_info (p : Propagated) (t : Typ) : (p.addInfo (Info.fromTy t)).info = p.info ++ ownInfo t := by
  unfold Propagated.addInfo ownInfo Info.isEmpty Info.fromTy collectDocs lines
  simp only [Bool.and_eq_true, String.isEmpty_iff, List.isEmpty_iff]
  split
  · simp
  · rfl

theorem huskInfo (info : List Info) (t : Typ) :
    (if (Info.fromTy t).isEmpty then info else info ++ [Info.fromTy t]) = info ++ ownInfo t := by
  unfold ownInfo Info.isEmpty Info.fromTy collectDocs lines
  simp only [Bool.and_eq_true, String.isEmpty_iff, List.isEmpty_iff]
  split
  · simp
  · rfl

/-! ### Element types -/

theorem huskLoop_peel {n : Nat} : ∀ {ty : Typ} {id : Nat} {info : List Info} {c : Checker}
    {h : HuskedType}, R.resolve id = .ok ty → huskLoop R n ty id info c = .ok h →
    Peel R c.specialtySet.hint info id h.checker.specialtySet.hint h.info h.id := by
  induction n with
  | zero => intro ty id info c h _ hh; cases hh
  | succ n ih =>
    intro ty id info c h hr hh
    unfold huskLoop at hh
    simp only [huskInfo] at hh
    split at hh
    · rename_i hn
      have hs := hinted_none.1 hn
      split at hh
      · rename_i f hd
        obtain ⟨c', h1, hh⟩ := bind_ok.1 hh
        obtain ⟨t', h2, hh⟩ := bind_ok.1 hh
        obtain ⟨_, rfl⟩ := checkId_ok.1 h1
        have := ih (get_ok.1 h2) hh
        rw [hintFromField_eq] at this
        exact .struct hr hs hd this
      · rename_i inner hd
        obtain ⟨_, _, hh⟩ := bind_ok.1 hh
        obtain ⟨c', h1, hh⟩ := bind_ok.1 hh
        obtain ⟨t', h2, hh⟩ := bind_ok.1 hh
        obtain ⟨_, rfl⟩ := checkId_ok.1 h1
        have := ih (c := _) (get_ok.1 h2) hh
        exact .compact hr hs hd this
      · rename_i h1 h2
        cases hh
        exact .stop hr (fun _ => ⟨fun f hd => h1 f hd, fun i hd => h2 i hd⟩)
    · rename_i hn
      cases hh
      exact .stop hr (fun hs => absurd (hinted_none.2 hs) hn)

theorem huskType_peel {id : Nat} {c : Checker} {h : HuskedType} (hh : huskType R id c = .ok h) :
    Peel R .none [] id h.checker.specialtySet.hint h.info h.id := by
  unfold huskType at hh
  obtain ⟨c', h0, hh⟩ := bind_ok.1 hh
  obtain ⟨t, ht, hh⟩ := bind_ok.1 hh
  exact huskLoop_peel (get_ok.1 ht) hh

/-! ### Collected sequences -/

theorem huskUInts_eq {w : UW} {l : List PD} {vs : List Nat} :
    huskUInts w l = some vs ↔ l = vs.map fun v => .uint w v .none := by
  induction l generalizing vs with
  | nil => cases vs <;> simp [huskUInts]
  | cons d ds ih =>
    cases vs with
    | nil =>
      simp only [List.map_nil, reduceCtorEq, iff_false]
      intro h
      unfold huskUInts at h
      split at h
      · rename_i h0; cases h0
      · split at h
        · obtain ⟨x, _, hx⟩ := Option.map_eq_some_iff.1 h; cases hx
        · cases h
      · cases h
    | cons v vs =>
      constructor
      · intro h
        unfold huskUInts at h
        split at h
        · rename_i h0; cases h0
        · rename_i h0
          cases h0
          split at h
          · rename_i hw; subst hw
            obtain ⟨x, hx, he⟩ := Option.map_eq_some_iff.1 h
            simp only [List.cons.injEq] at he
            obtain ⟨rfl, rfl⟩ := he
            rw [ih.1 hx]; rfl
          · cases h
        · cases h
      · intro h
        simp only [List.map_cons, List.cons.injEq] at h
        obtain ⟨rfl, h⟩ := h
        simp [huskUInts, ih.2 h]

/-- One element of a list of byte strings. -/
def BytesElem (info : List Info) (d : PD) (l : List Nat) : Prop :=
  d = .sequence info (.uints .u8 l) ∨ ∃ i, d = .sequenceRaw i [] ∧ l = []

theorem huskVecU8_some {info : List Info} {ds : List PD} {l : List (List Nat)} {i : Option (List Info)} :
    huskVecU8 (some info) ds = some (l, i) ↔
      i = some info ∧ ds.length = l.length ∧ ∀ x ∈ ds.zip l, BytesElem info x.1 x.2 := by
  induction ds generalizing l i with
  | nil =>
    cases l with
    | nil => simp [huskVecU8, eq_comm]
    | cons a l => simp [huskVecU8]
  | cons d ds ih =>
    have hcons : ∀ (l' : List Nat), (huskVecU8 (some info) ds).map (fun x => (l' :: x.1, x.2)) = some (l, i) ↔
        ∃ l2, l = l' :: l2 ∧ huskVecU8 (some info) ds = some (l2, i) := by
      intro l'
      rw [Option.map_eq_some_iff]
      constructor
      · rintro ⟨⟨x, y⟩, h1, h2⟩
        simp only [Prod.mk.injEq] at h2
        exact ⟨x, h2.1.symm, by rw [h1, h2.2]⟩
      · rintro ⟨l2, rfl, h⟩
        exact ⟨_, h, rfl⟩
    unfold huskVecU8
    split
    · rename_i h0; cases h0
    · rename_i ei a rest h0
      cases h0
      by_cases hi : info = ei
      · subst hi
        simp only [ne_eq, not_true_eq_false, if_false]
        rw [hcons a]
        constructor
        · rintro ⟨l2, rfl, h⟩
          obtain ⟨h1, h2, h3⟩ := ih.1 h
          refine ⟨h1, by simp [h2], ?_⟩
          intro x hx
          simp only [List.zip_cons_cons, List.mem_cons] at hx
          rcases hx with rfl | hx
          · exact .inl rfl
          · exact h3 x hx
        · rintro ⟨h1, h2, h3⟩
          cases l with
          | nil => simp at h2
          | cons a' l =>
            have := h3 (_, a') (by simp only [List.zip_cons_cons, List.mem_cons]; exact .inl rfl)
            rcases this with h | ⟨_, h, _⟩
            · simp only [PD.sequence.injEq, Sequence.uints.injEq, true_and] at h
              subst h
              exact ⟨l, rfl, ih.2 ⟨h1, by simpa using h2, fun x hx => h3 x (by
                simp only [List.zip_cons_cons, List.mem_cons]; exact .inr hx)⟩⟩
            · cases h
      · simp only [ne_eq, hi, not_false_eq_true, if_true, reduceCtorEq, false_iff]
        rintro ⟨h1, h2, h3⟩
        cases l with
        | nil => simp at h2
        | cons a' l =>
          have := h3 (_, a') (by simp only [List.zip_cons_cons, List.mem_cons]; exact .inl rfl)
          rcases this with h | ⟨_, h, _⟩
          · simp only [PD.sequence.injEq] at h; exact hi h.1.symm
          · cases h
    · rename_i i0 rest h0
      cases h0
      rw [hcons []]
      constructor
      · rintro ⟨l2, rfl, h⟩
        obtain ⟨h1, h2, h3⟩ := ih.1 h
        refine ⟨h1, by simp [h2], ?_⟩
        intro x hx
        simp only [List.zip_cons_cons, List.mem_cons] at hx
        rcases hx with rfl | hx
        · exact .inr ⟨_, rfl, rfl⟩
        · exact h3 x hx
      · rintro ⟨h1, h2, h3⟩
        cases l with
        | nil => simp at h2
        | cons a' l =>
          have := h3 (_, a') (by simp only [List.zip_cons_cons, List.mem_cons]; exact .inl rfl)
          rcases this with h | ⟨_, h, h'⟩
          · cases h
          · simp only at h'
            subst h'
            exact ⟨l, rfl, ih.2 ⟨h1, by simpa using h2, fun x hx => h3 x (by
              simp only [List.zip_cons_cons, List.mem_cons]; exact .inr hx)⟩⟩
    · rename_i hne1 hne2 hne3
      simp only [reduceCtorEq, false_iff]
      rintro ⟨h1, h2, h3⟩
      cases l with
      | nil => simp at h2
      | cons a' l =>
        have := h3 (d, a') (by simp)
        rcases this with h | ⟨i', h, h'⟩
        · simp only at h; exact hne2 _ _ _ (by rw [h])
        · simp only at h; exact hne3 _ _ (by rw [h])

theorem huskVecU8_first {info : List Info} {a : List Nat} (ds : List PD) :
    huskVecU8 none (.sequence info (.uints .u8 a) :: ds) =
      huskVecU8 (some info) (.sequence info (.uints .u8 a) :: ds) := by
  simp [huskVecU8]

theorem collected_iff {l : List PD} {s : Sequence} : wrapSequence l = some s ↔ Collected l s := by
  constructor
  · intro h
    unfold wrapSequence at h
    split at h
    · rename_i w v sp tl
      obtain ⟨vs, h1, rfl⟩ := Option.map_eq_some_iff.1 h
      have := huskUInts_eq.1 h1
      rw [this]
      refine .uints ?_
      rintro rfl
      simp at this
    · rename_i ei a tl
      obtain ⟨⟨vs, i⟩, h1, rfl⟩ := Option.map_eq_some_iff.1 h
      rw [huskVecU8_first] at h1
      obtain ⟨rfl, h2, h3⟩ := huskVecU8_some.1 h1
      exact .bytes ⟨a, rfl⟩ h2 h3
    · cases h
  · intro h
    cases h with
    | @uints w vs hne =>
      cases vs with
      | nil => exact absurd rfl hne
      | cons v vs =>
        have := (huskUInts_eq (w := w) (vs := v :: vs)).2 rfl
        simp only [List.map_cons] at this ⊢
        unfold wrapSequence
        simp only [this, Option.map_some]
    | @bytes info vs ds hh hl he =>
      obtain ⟨a, ha⟩ := hh
      cases l with
      | nil => cases ha
      | cons d ds =>
        simp only [List.head?_cons, Option.some.injEq] at ha
        subst ha
        have := (huskVecU8_some (i := some info)).2 ⟨rfl, hl, he⟩
        unfold wrapSequence
        simp only [huskVecU8_first, this, Option.map_some, Option.getD_some]

/-! ### The tree -/

/-- Calls follow the annotation rules. -/
structure ShownRel (R : Registry) (Q : Rel) : Prop where
  symbol : ∀ {id : Nat} {p : Propagated} {d : ED} {bs : Bytes}, Q (.symbol id) p d bs →
    Shown R p.checker.specialtySet.hint p.info id d
  resolved : ∀ {ty : Typ} {id : Nat} {p : Propagated} {d : ED} {bs : Bytes}, R.resolve id = .ok ty →
    Q (.resolved ty id) p d bs → Shown R p.checker.specialtySet.hint p.info id d

theorem forField_shown {c : Checker} {f : Field} {p : Propagated} (h : Propagated.forField c f = .ok p) :
    p.info = [] ∧ p.checker.specialtySet.hint = first c.specialtySet.hint (fieldLabel f) := by
  unfold Propagated.forField Checker.updateForField at h
  obtain ⟨c', h1, h2⟩ := bind_ok.1 h
  obtain ⟨_, rfl⟩ := checkId_ok.1 h1
  cases h2
  exact ⟨rfl, hintFromField_eq c f⟩

theorem FieldsRel.shown (hQ : ShownRel R Q) {c : Checker} {fs : List Field} {ds : List FD} {bs : Bytes}
    (h : FieldsRel Q c fs ds bs) :
    ds.length = fs.length ∧
    (∀ x ∈ fs.zip ds, x.2.fieldName = x.1.name ∧ x.2.typeName = x.1.typeName ∧
      x.2.fieldDocs = lines x.1.docs) ∧
    ∀ x ∈ fs.zip ds, Shown R (first c.specialtySet.hint (fieldLabel x.1)) [] x.1.ty x.2.data := by
  induction h with
  | nil => exact ⟨rfl, by simp, by simp⟩
  | cons hp hq _ ih =>
    obtain ⟨h1, h2, h3⟩ := ih
    obtain ⟨hi, hh⟩ := forField_shown hp
    refine ⟨by simp [h1], ?_, ?_⟩
    · intro x hx
      simp only [List.zip_cons_cons, List.mem_cons] at hx
      rcases hx with rfl | hx
      · exact ⟨rfl, rfl, rfl⟩
      · exact h2 x hx
    · intro x hx
      simp only [List.zip_cons_cons, List.mem_cons] at hx
      rcases hx with rfl | hx
      · have := hQ.symbol hq
        rw [hi, hh] at this
        exact this
      · exact h3 x hx

theorem TupleRel.shown (hQ : ShownRel R Q) {c : Checker} {ids : List Nat} {ds : List ED} {bs : Bytes}
    (h : TupleRel R Q c ids ds bs) :
    ds.length = ids.length ∧ (∀ i ∈ ids, ∃ u, R.resolve i = .ok u) ∧
    ∀ x ∈ ids.zip ds, ∀ u, R.resolve x.1 = .ok u →
      Shown R (first c.specialtySet.hint (pathLabel u)) [] x.1 x.2 := by
  induction h with
  | nil => exact ⟨rfl, by simp, by simp⟩
  | cons hg hp hq _ ih =>
    obtain ⟨h1, h2, h3⟩ := ih
    have hr := get_ok.1 hg
    refine ⟨by simp [h1], ?_, ?_⟩
    · intro i hi
      rcases List.mem_cons.1 hi with rfl | hi
      · exact ⟨_, hr⟩
      · exact h2 i hi
    · intro x hx u hu
      simp only [List.zip_cons_cons, List.mem_cons] at hx
      rcases hx with rfl | hx
      · rw [hr] at hu; cases hu
        unfold Propagated.forTy Checker.updateForTy at hp
        obtain ⟨c1, hp1, hp2⟩ := bind_ok.1 hp
        obtain ⟨c2, hp3, hp4⟩ := bind_ok.1 hp1
        obtain ⟨_, rfl⟩ := checkId_ok.1 hp3
        cases hp4; cases hp2
        have := hQ.resolved hr hq
        simp only [updateFromPath_hint] at this
        exact this
      · exact h3 x hx u hu

theorem ElemsRel.shown (hQ : ShownRel R Q) {h : HuskedType} (hr : R.resolve h.id = .ok h.ty)
    {ds : List PD} {bs : Bytes} (hh : ElemsRel Q h ds bs) :
    ∃ es : List ED, ds = es.map (·.data) ∧ ∀ e ∈ es, Shown R h.checker.specialtySet.hint [] h.id e := by
  induction hh with
  | nil => exact ⟨[], rfl, by simp⟩
  | cons hq _ ih =>
    obtain ⟨es, rfl, h2⟩ := ih
    refine ⟨_ :: es, rfl, ?_⟩
    intro e he
    rcases List.mem_cons.1 he with rfl | he
    · exact hQ.resolved hr hq
    · exact h2 e he

theorem PrimRel.shown {s : SpecialtySet} {pr : Prim} {d : PD} {bs : Bytes} (h : PrimRel s pr d bs)
    {id : Nat} {t : Typ} {is : List Info} (hr : R.resolve id = .ok t) (hs : Structural t.path)
    (hd : t.typeDef = .primitive pr) : Shown R s.hint is id ⟨d, is ++ ownInfo t⟩ := by
  cases h with
  | bool v hc => exact .bool hr hs hd
  | char v hc => exact .char hr hs hd
  | str t hc hl => rw [textLabel_eq]; exact .text hr hs hd
  | @uint p w v hw hv =>
    have hu : IsUInt pr w := by cases pr <;> simp [uwOf] at hw <;> subst hw <;> constructor
    rw [uintLabel_eq]; exact .uint hr hs hd hu
  | u256 hc hv => exact .u256 hr hs hd
  | @int p w v hw hc hv =>
    have hu : IsInt pr w := by cases pr <;> simp [iwOf] at hw <;> subst hw <;> constructor
    exact .int hr hs hd hu

theorem find_mem {vs : List Variant} {i : UInt8} {v : Variant}
    (h : vs.find? (fun v => v.index == i) = some v) : v ∈ vs := List.mem_of_find?_eq_some h

theorem first_none (h : Hint) : first .none h = h := rfl

theorem handed_none (n : Nat) : handed n .none = .none := by unfold handed; split <;> rfl

theorem list_shown (hQ : ShownRel R Q) {h : HuskedType} {hint : Hint} {is : List Info} {id elem : Nat}
    {t : Typ} {c : Checker} {l : List PD} {bs : Bytes} (hr : R.resolve id = .ok t) (hs : Structural t.path)
    (hd : t.typeDef = .sequence elem ∨ t.typeDef = .array l.length elem)
    (hh : huskType R elem c = .ok h) (he : ElemsRel Q h l bs) :
    Shown R hint is id ⟨seqData h l, is ++ ownInfo t⟩ := by
  obtain ⟨es, rfl, h2⟩ := he.shown hQ (huskType_core hh).1
  rw [List.length_map] at hd
  unfold seqData
  cases hw : wrapSequence (es.map (·.data)) with
  | none =>
    refine .list hr hs hd (huskType_peel hh) h2 ?_
    intro s hc
    rw [collected_iff.2 hc] at hw; cases hw
  | some s => exact .collected hr hs hd (huskType_peel hh) h2 (collected_iff.1 hw)

theorem DefRel.shown (hQ : ShownRel R Q) {ty : Typ} {id : Nat} {p : Propagated} {is : List Info} {d : ED}
    {bs : Bytes} (hr : R.resolve id = .ok ty) (hs : Structural ty.path)
    (hi : p.info = is ++ ownInfo ty) (h : DefRel R Q ty id p d bs) :
    Shown R p.checker.specialtySet.hint is id d := by
  cases h with
  | composite hd hf =>
    obtain ⟨h1, h2, h3⟩ := hf.rel.shown hQ
    rw [fieldsChecker_hint] at h3
    rw [hi]
    exact .struct hr hs hd h1 h2 h3
  | emptyEnum hd hc => rw [hi]; exact .never hr hs hd
  | enum hd hc hv hsp hf =>
    obtain ⟨h1, h2, h3⟩ := hf.rel.shown hQ
    rw [fieldsChecker_hint, show Checker.new.specialtySet.hint = .none from rfl, handed_none] at h3
    rw [hi]
    exact .variant hr hs hd (find_mem hv) h1 h2 h3
  | sequence hd hc hh hl he => rw [hi]; exact list_shown hQ hr hs (.inl hd) hh he
  | array hd hc hh he => rw [hi]; exact list_shown hQ hr hs (.inr hd) hh he
  | tuple hd hc ht =>
    obtain ⟨h1, h2, h3⟩ := ht.shown hQ
    rw [fieldsChecker_hint] at h3
    rw [hi]
    exact .tuple hr hs hd h1 h2 h3
  | primitive hd hp => rw [hi]; exact hp.shown hr hs hd
  | compact hd hc hck hq =>
    have h1 := hQ.symbol hq
    obtain ⟨_, rfl⟩ := checkId_ok.1 hck
    simp only [hi] at h1
    exact .compact hr hs hd h1
  | @bits order store k l _ hd hc hk he =>
    obtain ⟨s, o⟩ := k
    obtain ⟨h1, h2⟩ := bitKind_iff.1 hk
    rw [hi]
    exact .bits hr hs hd h1 h2

theorem enumSpecial_pallet_info {t : Typ} {vs : List Variant} {i : UInt8} {item : PalletItem} {n : String}
    {inner : List Variant} {info : Info}
    (h : enumSpecial R (TypeHinted.fromType t) vs i = .palletSpecific n info inner item) :
    ∃ w f t', special t.path = some (.pallet item) ∧ w ∈ vs ∧ w.name = n ∧ w.fields = [f] ∧
      R.resolve f.ty = .ok t' ∧ special t'.path = some (.pallet item) ∧ t'.typeDef = .variant inner ∧
      info = ⟨lines t'.docs, t'.path⟩ := by
  unfold enumSpecial at h
  split at h
  · split at h
    · split at h
      · split at h <;> cases h
      · cases h
    · cases h
  · rename_i item' hh
    split at h
    · rename_i v hv
      split at h
      · rename_i f hf
        split at h
        · rename_i t' ht'
          split at h
          · rename_i item'' hh'
            split at h
            · cases h
            · rename_i hne
              have hit : item' = item'' := by
                cases item' <;> cases item'' <;> simp_all
              split at h
              · rename_i vs' hd'
                cases h
                subst hit
                exact ⟨v, f, t', hinted_pallet.1 hh, find_mem hv, rfl, hf, get_ok.1 ht',
                  hinted_pallet.1 hh', hd', rfl⟩
              · cases h
          · cases h
        · cases h
      · cases h
    · cases h
  · cases h

theorem TyRel.shown (hQ : ShownRel R Q) {ty : Typ} {id : Nat} {p : Propagated} {is : List Info} {d : ED}
    {bs : Bytes} (hr : R.resolve id = .ok ty) (hi : p.info = is ++ ownInfo ty)
    (h : TyRel R Q ty id p d bs) : Shown R p.checker.specialtySet.hint is id d := by
  cases h with
  | ofDef ho h => exact h.shown hQ hr (hinted_open.1 ho) hi
  | fixed hh hc hl => rw [hi]; exact .fixed hr (hinted_fixed.1 hh)
  | era hh hc he => rw [hi]; exact .era hr (hinted_era.1 hh)
  | h256 hh hc hl => rw [hi, labelledHash_eq]; exact .hash hr (hinted_h256.1 hh)
  | per hh hc hv => rw [hi]; exact .per hr (hinted_per.1 hh)
  | perCompact hh hc hv => rw [hi]; exact .per hr (hinted_per.1 hh)
  | signature hd hc hh he hl => rw [hi]; exact .signature hr ((enumSpecial_fixed hd).1 he)
  | pallet hd hc hh he hv hf =>
    obtain ⟨h1, h2, h3⟩ := hf.rel.shown hQ
    rw [fieldsChecker_hint, show Checker.new.specialtySet.hint = .none from rfl, handed_none] at h3
    obtain ⟨w, f, t', g1, g2, g3, g4, g5, g6, g7, g8⟩ := enumSpecial_pallet_info he
    rw [hi, g8, ← g3]
    exact .pallet hr g1 hd g2 g4 g5 g6 g7 (find_mem hv) h1 h2 h3

theorem runN_shown (n : Nat) : ShownRel R (RunN R n) := by
  induction n with
  | zero => exact ⟨fun h => h.elim, fun _ h => h.elim⟩
  | succ n ih =>
    constructor
    · rintro id p d bs ⟨ty, id', h1, h2⟩
      obtain ⟨t, ht, h1⟩ := bind_ok.1 h1
      cases h1
      have := h2.shown ih (get_ok.1 ht) (addInfo_info p _)
      rwa [addInfo_checker] at this
    · rintro ty id p d bs hr ⟨ty', id', h1, h2⟩
      cases h1
      have := h2.shown ih hr (addInfo_info p _)
      rwa [addInfo_checker] at this

theorem run_shown : ShownRel R (Run R) :=
  ⟨fun ⟨n, h⟩ => (runN_shown n).symbol h, fun hr ⟨n, h⟩ => (runN_shown n).resolved hr h⟩

end Verif
