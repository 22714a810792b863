import Verif.Proof.Bridge
/-!
`husk_type` finds the core of a type; recognition of signatures, pallet items and
bit sequence kinds.
-/
namespace Verif
open Spec

variable {R : Registry}

theorem hintFromField_compact (c : Checker) (f : Field) :
    (c.hintFromField f).specialtySet.compactAt = c.specialtySet.compactAt := by
  unfold Checker.hintFromField
  split <;> rfl

/-! ### Core -/

theorem huskLoop_core {n : Nat} : ∀ {ty : Typ} {id : Nat} {info : List Info} {c : Checker}
    {h : HuskedType}, R.resolve id = .ok ty → huskLoop R n ty id info c = .ok h →
    R.resolve h.id = .ok h.ty ∧
    ∃ k, Core R c.specialtySet.compactAt.isSome id h.checker.specialtySet.compactAt.isSome h.ty h.id k := by
  induction n with
  | zero => intro ty id info c h _ hh; cases hh
  | succ n ih =>
    intro ty id info c h hid hh
    unfold huskLoop at hh
    simp only at hh
    split at hh
    · rename_i hn
      have hs := hinted_none.1 hn
      split at hh
      · rename_i f hd
        obtain ⟨c', h1, hh⟩ := bind_ok.1 hh
        obtain ⟨t, h2, hh⟩ := bind_ok.1 hh
        obtain ⟨_, rfl⟩ := checkId_ok.1 h1
        obtain ⟨h3, k, h4⟩ := ih (get_ok.1 h2) hh
        rw [hintFromField_compact] at h4
        exact ⟨h3, k + 1, .struct hid hs hd h4⟩
      · rename_i inner hd
        obtain ⟨_, h0, hh⟩ := bind_ok.1 hh
        obtain ⟨c', h1, hh⟩ := bind_ok.1 hh
        obtain ⟨t, h2, hh⟩ := bind_ok.1 hh
        obtain ⟨_, rfl⟩ := checkId_ok.1 h1
        obtain ⟨h3, k, h4⟩ := ih (get_ok.1 h2) hh
        have h0 := rejectCompact_ok.1 h0
        rw [h0]
        exact ⟨h3, k + 1, .compact hid hs hd h4⟩
      · rename_i hx hy
        cases hh
        exact ⟨hid, 0, .stop hid (fun _ => ⟨hx, hy⟩)⟩
    · rename_i hn
      cases hh
      exact ⟨hid, 0, .stop hid (fun hs => absurd (hinted_none.2 hs) hn)⟩

theorem huskType_core {id : Nat} {c : Checker} {h : HuskedType} (hh : huskType R id c = .ok h) :
    R.resolve h.id = .ok h.ty ∧
    ∃ k, Core R false id h.checker.specialtySet.compactAt.isSome h.ty h.id k := by
  unfold huskType at hh
  obtain ⟨c', h0, hh⟩ := bind_ok.1 hh
  obtain ⟨t, ht, hh⟩ := bind_ok.1 hh
  exact huskLoop_core (get_ok.1 ht) hh

/-- A measure that goes down along single-field structs and compacts. -/
structure Down (R : Registry) (m : Nat → Nat) : Prop where
  struct : ∀ {id t f c c' core coreId k}, R.resolve id = .ok t → special t.path = none →
    t.typeDef = .composite [f] → Core R c f.ty c' core coreId k → m f.ty < m id
  compact : ∀ {id t i c' core coreId k}, R.resolve id = .ok t → special t.path = none →
    t.typeDef = .compact i → Core R true i c' core coreId k → m i < m id

theorem Spec.Core.resolve {c c' : Bool} {id coreId k : Nat} {core : Typ}
    (h : Core R c id c' core coreId k) : ∃ t, R.resolve id = .ok t := by
  cases h with
  | stop h _ => exact ⟨_, h⟩
  | struct h _ _ _ => exact ⟨_, h⟩
  | compact h _ _ _ => exact ⟨_, h⟩

theorem Spec.Core.resolve_core {c c' : Bool} {id coreId k : Nat} {core : Typ}
    (h : Core R c id c' core coreId k) : R.resolve coreId = .ok core := by
  induction h with
  | stop h _ => exact h
  | struct _ _ _ _ ih => exact ih
  | compact _ _ _ _ ih => exact ih

theorem huskLoop_of_core {m : Nat → Nat} (hm : Down R m) {c c' : Bool} {id coreId k : Nat} {core : Typ}
    (h : Core R c id c' core coreId k) : ∀ {n : Nat} {ty : Typ} {info : List Info} {ch : Checker},
    R.resolve id = .ok ty → ch.specialtySet.compactAt.isSome = c → (∀ x ∈ ch.cycleCheck, m id ≤ m x) →
    huskLoop R n ty id info ch = .error .fuel ∨
    ∃ h, huskLoop R n ty id info ch = .ok h ∧ h.ty = core ∧ h.id = coreId ∧
      h.checker.specialtySet.compactAt.isSome = c' ∧ ∀ x ∈ h.checker.cycleCheck, m coreId ≤ m x := by
  induction h with
  | @stop c id t hid hstop =>
    intro n ty info ch hty hc hcyc
    obtain rfl : t = ty := by rw [hid] at hty; cases hty; rfl
    cases n with
    | zero => exact .inl rfl
    | succ n =>
      right
      unfold huskLoop
      simp only
      split
      · rename_i hn
        obtain ⟨h1, h2⟩ := hstop (hinted_none.1 hn)
        split
        · rename_i f hd; exact absurd hd (h1 f)
        · rename_i i hd; exact absurd hd (h2 i)
        · exact ⟨_, rfl, rfl, rfl, hc, hcyc⟩
      · exact ⟨_, rfl, rfl, rfl, hc, hcyc⟩
  | @struct c c' id t core f coreId k hid hs hd hcore ih =>
    intro n ty info ch hty hc hcyc
    obtain rfl : t = ty := by rw [hid] at hty; cases hty; rfl
    cases n with
    | zero => exact .inl rfl
    | succ n =>
      have hlt := hm.struct hid hs hd hcore
      have hnot : ch.cycleCheck.contains f.ty = false := by
        cases hcon : ch.cycleCheck.contains f.ty with
        | false => rfl
        | true => have := hcyc _ (by simpa using hcon); omega
      obtain ⟨t', ht'⟩ := hcore.resolve
      unfold huskLoop
      simp only [hinted_none.2 hs, if_true, hd]
      rw [checkId_ok.2 ⟨hnot, rfl⟩, ok_bind, get_ok.2 ht', ok_bind]
      apply ih ht'
      · rw [hintFromField_compact]; exact hc
      · rw [hintFromField_cycle]
        intro x hx
        rcases List.mem_append.1 hx with hx | hx
        · have := hcyc x hx; omega
        · simp at hx; subst hx; exact Nat.le_refl _
  | @compact c' id t core inner coreId k hid hs hd hcore ih =>
    intro n ty info ch hty hc hcyc
    obtain rfl : t = ty := by rw [hid] at hty; cases hty; rfl
    cases n with
    | zero => exact .inl rfl
    | succ n =>
      have hlt := hm.compact hid hs hd hcore
      have hnot : ch.cycleCheck.contains inner = false := by
        cases hcon : ch.cycleCheck.contains inner with
        | false => rfl
        | true => have := hcyc _ (by simpa using hcon); omega
      obtain ⟨t', ht'⟩ := hcore.resolve
      unfold huskLoop
      simp only [hinted_none.2 hs, if_true, hd]
      have hrej : ch.rejectCompact = .ok () := rejectCompact_ok.2 (by
        cases hx : ch.specialtySet.compactAt with
        | none => rfl
        | some _ => rw [hx] at hc; cases hc)
      have hck := (checkId_ok (c := compactChecker ch id) (id := inner)).2 ⟨hnot, rfl⟩
      unfold compactChecker at hck
      rw [hrej, ok_bind, hck, ok_bind, get_ok.2 ht', ok_bind]
      apply ih ht'
      · rfl
      · intro x hx
        rcases List.mem_append.1 hx with hx | hx
        · have := hcyc x hx; omega
        · simp at hx; subst hx; exact Nat.le_refl _

theorem huskType_of_core {m : Nat → Nat} (hm : Down R m) {c' : Bool} {id coreId k : Nat} {core : Typ}
    (h : Core R false id c' core coreId k) {ch : Checker} (hcyc : ∀ x ∈ ch.cycleCheck, m id < m x) :
    ∃ h, huskType R id ch = .ok h ∧ h.ty = core ∧ h.id = coreId ∧
      h.checker.specialtySet.compactAt.isSome = c' ∧ ∀ x ∈ h.checker.cycleCheck, m coreId ≤ m x := by
  obtain ⟨t, ht⟩ := h.resolve
  have hnot : ch.cycleCheck.contains id = false := by
    cases hcon : ch.cycleCheck.contains id with
    | false => rfl
    | true => have := hcyc _ (by simpa using hcon); omega
  have hf := huskType_fine R id ch
  unfold huskType at hf ⊢
  rw [checkId_ok.2 ⟨hnot, rfl⟩, ok_bind, get_ok.2 ht, ok_bind] at hf ⊢
  rcases huskLoop_of_core hm h (n := R.size + 1) (info := [])
    (ch := { specialtySet := {}, cycleCheck := ch.cycleCheck ++ [id] }) ht rfl (by
      intro x hx
      rcases List.mem_append.1 hx with hx | hx
      · exact Nat.le_of_lt (hcyc x hx)
      · simp at hx; subst hx; exact Nat.le_refl _) with h1 | h1
  · obtain ⟨e, he⟩ := hf _ h1
    cases he
  · exact h1

/-- The number of wrappers is determined by the type. -/
theorem core_height {c c' : Bool} {id coreId k : Nat} {core : Typ}
    (h : Core R c id c' core coreId k) : ∀ {d d' : Bool} {coreId' k' : Nat} {core' : Typ},
    Core R d id d' core' coreId' k' → k = k' := by
  induction h with
  | stop hid hs =>
    intro d d' i' k' core' h'
    cases h' with
    | stop _ _ => rfl
    | struct h1 h2 h3 _ => rw [hid] at h1; cases h1; exact absurd h3 ((hs h2).1 _)
    | compact h1 h2 h3 _ => rw [hid] at h1; cases h1; exact absurd h3 ((hs h2).2 _)
  | struct hid hs hd _ ih =>
    intro d d' i' k' core' h'
    cases h' with
    | stop h1 h2 => rw [hid] at h1; cases h1; exact absurd hd ((h2 hs).1 _)
    | struct h1 h2 h3 h4 =>
      rw [hid] at h1; cases h1
      rw [hd] at h3; cases h3
      rw [ih h4]
    | compact h1 h2 h3 _ => rw [hid] at h1; cases h1; rw [hd] at h3; cases h3
  | compact hid hs hd _ ih =>
    intro d d' i' k' core' h'
    cases h' with
    | stop h1 h2 => rw [hid] at h1; cases h1; exact absurd hd ((h2 hs).2 _)
    | struct h1 h2 h3 h4 => rw [hid] at h1; cases h1; rw [hd] at h3; cases h3
    | compact h1 h2 h3 h4 =>
      rw [hid] at h1; cases h1
      rw [hd] at h3; cases h3
      rw [ih h4]

open Classical in
/-- Number of wrappers around a type, when there is a core. -/
noncomputable def coreHeight (R : Registry) (id : Nat) : Nat :=
  if h : ∃ k c c' core coreId, Core R c id c' core coreId k then h.choose else 0

theorem coreHeight_eq {c c' : Bool} {id coreId k : Nat} {core : Typ}
    (h : Core R c id c' core coreId k) : coreHeight R id = k := by
  have hx : ∃ k c c' core coreId, Core R c id c' core coreId k := ⟨k, c, c', core, coreId, h⟩
  unfold coreHeight
  rw [dif_pos hx]
  obtain ⟨_, _, _, _, h'⟩ := hx.choose_spec
  exact core_height h' h

theorem coreHeight_down : Down R (coreHeight R) where
  struct := by
    intro id t f c c' core coreId k h1 h2 h3 h4
    rw [coreHeight_eq h4, coreHeight_eq (Core.struct h1 h2 h3 h4)]
    omega
  compact := by
    intro id t i c' core coreId k h1 h2 h3 h4
    rw [coreHeight_eq h4, coreHeight_eq (Core.compact h1 h2 h3 h4)]
    omega

/-- The core is determined by the type. -/
theorem core_unique {c c' : Bool} {id coreId k : Nat} {core : Typ}
    (h : Core R c id c' core coreId k) : ∀ {d' : Bool} {coreId' k' : Nat} {core' : Typ},
    Core R c id d' core' coreId' k' → c' = d' ∧ core = core' ∧ coreId = coreId' := by
  induction h with
  | stop hid hs =>
    intro d' i' k' core' h'
    cases h' with
    | stop h1 _ => rw [hid] at h1; cases h1; exact ⟨rfl, rfl, rfl⟩
    | struct h1 h2 h3 _ => rw [hid] at h1; cases h1; exact absurd h3 ((hs h2).1 _)
    | compact h1 h2 h3 _ => rw [hid] at h1; cases h1; exact absurd h3 ((hs h2).2 _)
  | struct hid hs hd _ ih =>
    intro d' i' k' core' h'
    cases h' with
    | stop h1 h2 => rw [hid] at h1; cases h1; exact absurd hd ((h2 hs).1 _)
    | struct h1 h2 h3 h4 =>
      rw [hid] at h1; cases h1
      rw [hd] at h3; cases h3
      exact ih h4
    | compact h1 h2 h3 _ => rw [hid] at h1; cases h1; rw [hd] at h3; cases h3
  | compact hid hs hd _ ih =>
    intro d' i' k' core' h'
    cases h' with
    | stop h1 h2 => rw [hid] at h1; cases h1; exact absurd hd ((h2 hs).2 _)
    | struct h1 h2 h3 h4 => rw [hid] at h1; cases h1; rw [hd] at h3; cases h3
    | compact h1 h2 h3 h4 =>
      rw [hid] at h1; cases h1
      rw [hd] at h3; cases h3
      exact ih h4

/-! ### Signatures -/

theorem swallow_some {α : Type} {r : Res α} {a : α} : swallow r = .ok (some a) ↔ r = .ok a := by
  unfold swallow
  cases r with
  | ok x => simp
  | error f => cases f <;> simp

/-- Signature kind by type name, in the order of the checks. -/
theorem signatureIndicator_iff {f : Field} {k : FixedKind} :
    signatureIndicator R f = .ok (some k) ↔ IsSignatureField R f k := by
  have hcase : ∀ (tn : String) (len : Nat),
      ((if signatureEcdsaIdSet.contains tn then
          (.ok (if len = FixedKind.signatureEcdsa.len then some .signatureEcdsa else none) : Res (Option FixedKind))
        else if signatureEd25519IdSet.contains tn then
          .ok (if len = FixedKind.signatureEd25519.len then some .signatureEd25519 else none)
        else if signatureSr25519IdSet.contains tn then
          .ok (if len = FixedKind.signatureSr25519.len then some .signatureSr25519 else none)
        else .ok none) = .ok (some k)) ↔
      (((k = .signatureEcdsa ∧ tn = "ecdsa::Signature") ∨ (k = .signatureEd25519 ∧ tn = "ed25519::Signature") ∨
        (k = .signatureSr25519 ∧ tn = "sr25519::Signature")) ∧ len = k.len) := by
    intro tn len
    simp only [signatureEcdsaIdSet, signatureEd25519IdSet, signatureSr25519IdSet, List.contains_cons,
      List.contains_nil, Bool.or_false, beq_iff_eq]
    by_cases h1 : tn = "ecdsa::Signature"
    · subst h1
      by_cases hl : len = FixedKind.signatureEcdsa.len
      · subst hl; cases k <;> simp [FixedKind.len]
      · cases k <;> simp [hl]
    by_cases h2 : tn = "ed25519::Signature"
    · subst h2
      by_cases hl : len = FixedKind.signatureEd25519.len
      · subst hl; cases k <;> simp [FixedKind.len]
      · cases k <;> simp [hl]
    by_cases h3 : tn = "sr25519::Signature"
    · subst h3
      by_cases hl : len = FixedKind.signatureSr25519.len
      · subst hl; cases k <;> simp [FixedKind.len]
      · cases k <;> simp [hl]
    · simp [h1, h2, h3]
  constructor
  · intro h
    unfold signatureIndicator at h
    obtain ⟨o, h1, h⟩ := bind_ok.1 h
    cases o with
    | none => cases h
    | some hu =>
      have h1 := swallow_some.1 h1
      simp only at h
      split at h
      · rename_i len elem hd
        obtain ⟨o, h2, h⟩ := bind_ok.1 h
        cases o with
        | none => cases h
        | some t =>
          have h2 := get_ok.1 (swallow_some.1 h2)
          simp only at h
          split at h
          · rename_i hp
            split at h
            · rename_i tn htn
              obtain ⟨h3, h4⟩ := (hcase tn len).1 h
              obtain ⟨h5, j, h6⟩ := huskType_core h1
              refine ⟨?_, _, _, _, _, elem, t, h6, by rw [← h4]; exact hd, h2, hp⟩
              rw [htn]; simpa using h3
            · cases h
          · cases h
      · cases h
  · rintro ⟨h3, c', core, coreId, j, elem, t, h6, hd, h2, hp⟩
    obtain ⟨hu, h1, h7, h8, h9, _⟩ := huskType_of_core coreHeight_down h6 (ch := Checker.new)
      (by intro x hx; cases hx)
    obtain ⟨tn, htn⟩ : ∃ tn, f.typeName = some tn := by
      rcases h3 with ⟨_, h⟩ | ⟨_, h⟩ | ⟨_, h⟩ <;> exact ⟨_, h⟩
    unfold signatureIndicator
    rw [swallow_some.2 h1, ok_bind]
    simp only [h7, hd]
    rw [swallow_some.2 (get_ok.2 h2), ok_bind]
    simp only [hp, if_true, htn]
    exact (hcase tn k.len).2 ⟨by rw [htn] at h3; simpa using h3, rfl⟩

theorem enumSpecial_fixed {t : Typ} {vs : List Variant} {i : UInt8} {k : FixedKind}
    (hd : t.typeDef = .variant vs) :
    enumSpecial R (TypeHinted.fromType t) vs i = .fixed k ↔ IsSignature R t i k := by
  constructor
  · intro h
    unfold enumSpecial at h
    split at h
    · rename_i hh
      split at h
      · rename_i v hv
        split at h
        · rename_i f hf
          split at h
          · rename_i k' hk
            cases h
            exact ⟨hinted_multi.1 hh, vs, v, f, hd, find_selects.1 hv, hf, signatureIndicator_iff.1 hk⟩
          · cases h
        · cases h
      · cases h
    · repeat' split at h
      all_goals cases h
    · cases h
  · rintro ⟨h1, vs', v, f, h2, h3, h4, h5⟩
    rw [hd] at h2; cases h2
    unfold enumSpecial
    rw [hinted_multi.2 h1]
    simp only [find_selects.2 h3, h4, signatureIndicator_iff.2 h5]

theorem enumSpecial_pallet {t : Typ} {vs : List Variant} {i : UInt8} {item : PalletItem} {n : String}
    {inner : List Variant} (hd : t.typeDef = .variant vs) :
    (∃ info, enumSpecial R (TypeHinted.fromType t) vs i = .palletSpecific n info inner item) ↔
      IsPallet R t i item n inner := by
  constructor
  · rintro ⟨info, h⟩
    unfold enumSpecial at h
    split at h
    · repeat' split at h
      all_goals cases h
    · rename_i it hh
      split at h
      · rename_i v hv
        split at h
        · rename_i f hf
          split at h
          · rename_i t' ht'
            split at h
            · rename_i it' hh'
              split at h
              · cases h
              · rename_i hi
                split at h
                · rename_i vs' hd'
                  cases h
                  have : item = it' := by simpa using hi
                  subst this
                  exact ⟨hinted_pallet.1 hh, vs, v, f, t', hd, find_selects.1 hv, rfl, hf,
                    get_ok.1 ht', hinted_pallet.1 hh', hd'⟩
                · cases h
            · cases h
          · cases h
        · cases h
      · cases h
    · cases h
  · rintro ⟨h1, vs', v, f, t', h2, h3, h4, h5, h6, h7, h8⟩
    rw [hd] at h2; cases h2
    refine ⟨Info.fromTy t', ?_⟩
    unfold enumSpecial
    rw [hinted_pallet.2 h1]
    simp only [find_selects.2 h3, h5, get_ok.2 h6, hinted_pallet.2 h7, ne_eq, not_true, if_false, h8, h4]

theorem enumSpecial_none {t : Typ} {vs : List Variant} {i : UInt8} (hd : t.typeDef = .variant vs) :
    enumSpecial R (TypeHinted.fromType t) vs i = .none ↔
      (∀ k, ¬ IsSignature R t i k) ∧ ∀ item n inner, ¬ IsPallet R t i item n inner := by
  constructor
  · intro h
    constructor
    · intro k hk
      rw [(enumSpecial_fixed hd).2 hk] at h; cases h
    · intro item n inner hk
      obtain ⟨info, hp⟩ := (enumSpecial_pallet hd).2 hk
      rw [hp] at h; cases h
  · rintro ⟨h1, h2⟩
    rcases enumSpecial_cases (R := R) (TypeHinted.fromType t) vs i with h | ⟨k, _, h⟩ | ⟨item, n, inf, vs', _, h⟩
    · exact h
    · exact absurd ((enumSpecial_fixed hd).1 h) (h1 k)
    · exact absurd ((enumSpecial_pallet hd).1 ⟨inf, h⟩) (h2 item n vs')

/-! ### Bit sequences -/

theorem bitKind_iff {order store id : Nat} {s : BitStore} {o : BitOrder} :
    bitKind R order store id = .ok (s, o) ↔ IsBitOrder R order o ∧ IsBitStore R store s := by
  have hord : ∀ o, findBitOrder R order id = .ok o ↔ IsBitOrder R order o := by
    intro o
    unfold findBitOrder IsBitOrder
    constructor
    · intro h
      obtain ⟨t, ht, h⟩ := bind_ok.1 h
      have ht := get_ok.1 ht
      split at h
      · rename_i fields hd
        split at h
        · rename_i a ha
          split at h
          · rename_i hl; cases h; exact ⟨t, fields, ht, hd, .inl ⟨rfl, by rw [← hl]; exact ha⟩⟩
          · split at h
            · rename_i hl; cases h; exact ⟨t, fields, ht, hd, .inr ⟨rfl, by rw [← hl]; exact ha⟩⟩
            · cases h
        · cases h
      · cases h
    · rintro ⟨t, fields, ht, hd, h⟩
      rw [get_ok.2 ht, ok_bind]
      simp only [hd, Typ.ident]
      rcases h with ⟨rfl, h⟩ | ⟨rfl, h⟩
      · simp [h]
      · simp [h]
  unfold bitKind
  constructor
  · intro h
    obtain ⟨o', h1, h⟩ := bind_ok.1 h
    obtain ⟨t, ht, h⟩ := bind_ok.1 h
    have ht := get_ok.1 ht
    split at h
    · rename_i p hd
      split at h
      · rename_i st hst
        cases h
        refine ⟨(hord _).1 h1, t, p, ht, hd, ?_⟩
        cases p <;> simp [BitStore.ofPrim] at hst <;> subst hst <;> simp
      · cases h
    · cases h
  · rintro ⟨h1, t, p, ht, hd, h⟩
    rw [(hord o).2 h1, ok_bind, get_ok.2 ht, ok_bind]
    simp only [hd]
    rcases h with ⟨rfl, rfl⟩ | ⟨rfl, rfl⟩ | ⟨rfl, rfl⟩ | ⟨rfl, rfl⟩ <;> rfl

end Verif
