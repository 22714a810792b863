import Verif.Spec.Transaction
import Verif.Proof.Out
import Verif.Props.Hints
/-! Lemmas on calls and extensions. -/
namespace Verif
open Spec

variable {R : Registry} {b : Buf} {ME : Type}

theorem asCall_some {d : PD} {c : Call} : d.asCall = some c ↔
    d = .pallet .call c.palletInfo c.variantDocs c.palletName c.variantName c.fields := by
  constructor
  · intro h
    unfold PD.asCall at h
    split at h
    · cases h; rfl
    · cases h
  · rintro rfl; rfl

/-- A call comes from the two enums of the call type. -/
theorem run_call {id : Nat} {p : Propagated} {d : ED} {bs : Bytes} {c : Call} (hp : p.compactAt = none)
    (h : Run R (.symbol id) p d bs) (hc : d.data.asCall = some c) : IsCall R id c bs := by
  rw [asCall_some] at hc
  obtain ⟨d, info⟩ := d
  subst hc
  obtain ⟨ty, id', h1, h2⟩ := run_iff.1 h
  obtain ⟨t, ht, h1⟩ := bind_ok.1 h1
  cases h1
  have hr := get_ok.1 ht
  generalize hq : p.addInfo (Info.fromTy ty) = q at h2
  have hqc : q.compactAt = none := by rw [← hq, addInfo_compact, hp]
  generalize he : (⟨.pallet .call c.palletInfo c.variantDocs c.palletName c.variantName c.fields, info⟩ : ED) = e
    at h2
  cases h2 with
  | ofDef ho h =>
    cases h with
    | composite | emptyEnum | enum | tuple | bits => cases he
    | sequence hd hc hh hl hel =>
      simp only [seqData] at he; split at he <;> cases he
    | array hd hc hh hel =>
      simp only [seqData] at he; split at he <;> cases he
    | primitive hd hpr => cases hpr <;> cases he
    | compact hd hcc hck hQ =>
      -- inside a compact there is no call
      exfalso
      obtain ⟨ty', id'', h3, h4⟩ := run_iff.1 hQ
      obtain ⟨_, rfl⟩ := checkId_ok.1 hck
      generalize hq' : (Propagated.addInfo _ (Info.fromTy ty')) = q' at h4
      have hqs : q'.compactAt ≠ none := by rw [← hq', addInfo_compact]; simp [Propagated.compactAt, compactChecker]
      subst he
      generalize he : (⟨.pallet .call c.palletInfo c.variantDocs c.palletName c.variantName c.fields, info⟩ : ED) = e
        at h4
      cases h4 with
      | pallet _ hc => exact hqs hc
      | fixed | era | per | perCompact | signature => cases he
      | h256 => unfold h256Data at he; split at he <;> cases he
      | ofDef ho h =>
        cases h with
        | composite | emptyEnum | enum | tuple | bits => cases he
        | sequence _ hc => exact hqs hc
        | array _ hc => exact hqs hc
        | primitive hd hpr => cases hpr <;> cases he
        | compact hd hcc => exact hqs hcc
  | fixed | era | per | perCompact | signature => cases he
  | h256 => unfold h256Data at he; split at he <;> cases he
  | pallet hd hc hh hs hv hf =>
    obtain ⟨ps, g1, g2, g3, g4⟩ := hf.sound_new run_sound
    simp only [ED.mk.injEq, PD.pallet.injEq] at he
    obtain ⟨⟨rfl, e2, e3, e4, e5, e6⟩, _⟩ := he
    subst g2
    rw [← e4] at hs
    rw [← e6] at g3
    exact ⟨ty, _, _, _, _, ps, hr, (enumSpecial_pallet hd).1 ⟨_, hs⟩, find_selects.1 hv, e5, g1, g4, g3, rfl⟩

theorem Spec.IsCall.enc {id : Nat} {c : Call} {bs : Bytes} (h : IsCall R id c bs) :
    Enc R false id (.pallet .call c.palletName c.variantName (fdsValue c.fields)) bs := by
  obtain ⟨t, i, j, inner, v, ps, h1, h2, h3, h4, h5, h6, h7, rfl⟩ := h
  rw [h4, h7]
  exact .pallet h1 h2 h3 h5 h6

/-- A type with the pattern of calls is decoded into a call. -/
theorem run_isCall {id : Nat} {p : Propagated} {d : ED} {bs : Bytes} {c : Call}
    (hi : IsCall R id c bs) (h : Run R (.symbol id) p d bs)
    (hv : edValue d = .pallet .call c.palletName c.variantName (fdsValue c.fields)) :
    ∃ c', d.data.asCall = some c' := by
  obtain ⟨t, i, j, inner, v, ps, h1, ⟨_, vs, _, _, _, hd, _⟩, _⟩ := hi
  obtain ⟨ty, id', g1, g2⟩ := run_iff.1 h
  obtain ⟨t', ht, g1⟩ := bind_ok.1 g1
  cases g1
  rw [get_ok.1 ht] at h1; cases h1
  cases g2 with
  | pallet _ _ _ _ _ _ =>
    simp only [edValue, pdValue, Value.pallet.injEq] at hv
    obtain ⟨rfl, _⟩ := hv
    exact ⟨_, rfl⟩
  | fixed | era | per | perCompact | signature => simp [edValue, pdValue] at hv
  | h256 => unfold h256Data at hv; split at hv <;> simp [edValue, pdValue] at hv
  | ofDef ho h =>
    cases h with
    | composite hd' _ | sequence hd' | array hd' | tuple hd' | primitive hd' | compact hd' | bits hd' =>
      rw [hd] at hd'; cases hd'
    | emptyEnum | enum => simp [edValue, pdValue] at hv

theorem extLabel_eq (s : String) : Hint.fromExtMeta s = extLabel s := by
  unfold Hint.fromExtMeta extLabel
  simp only [List.lookup]
  repeat' split
  all_goals simp_all

theorem zip3_cons {α β γ : Type} {a : α} {b : β} {c : γ} {l : List α} {l' : List β} {l'' : List γ} :
    (a :: l).zip ((b :: l').zip (c :: l'')) = (a, b, c) :: l.zip (l'.zip l'') := rfl

theorem extensionsLoop_sound {sel : SignedExt → Nat} {signed : List SignedExt} {pos pos' : Nat} {ds : List ED}
    (h : extensionsLoop (ME := ME) R b sel signed pos = .ok (ds, pos')) :
    ∃ bs, Has b.bytes pos bs ∧ pos' = pos + bs.length ∧
      ItemsAre R (signed.map fun e => (e.identifier, sel e)) ds bs := by
  induction signed generalizing pos ds with
  | nil =>
    cases h
    exact ⟨[], .inl rfl, rfl, [], rfl, rfl, rfl, by simp⟩
  | cons e es ih =>
    unfold extensionsLoop at h
    obtain ⟨⟨d, q⟩, h1, h⟩ := ebind_ok.1 h
    obtain ⟨⟨ds', q'⟩, h2, h⟩ := ebind_ok.1 h
    cases h
    rw [mapErr_ok] at h1
    obtain ⟨bs, g1, rfl, chunks, rfl, g3, g4, g5⟩ := ih h2
    have hs := decode_shown h1
    obtain ⟨bs', k1, rfl, k3⟩ := (decode_parses R b _ _).sound h1
    have k4 := run_sound.symbol k3
    refine ⟨bs' ++ chunks.flatten, k1.append g1, by simp; omega, bs' :: chunks, rfl, by simp [g3], by simp [g4], ?_⟩
    intro x hx
    rw [List.map_cons, zip3_cons] at hx
    rcases List.mem_cons.1 hx with rfl | hx
    · refine ⟨k4, ?_⟩
      simpa [Propagated.fromExtMeta, extLabel_eq] using hs
    · exact g5 x hx

theorem extensionsLoop_complete (hr : Reliable b) {sel : SignedExt → Nat} {signed : List SignedExt} {pos : Nat}
    (hk : EmptyArraysGrounded R) {vs : Parts} (hl : vs.length = signed.length)
    (he : ∀ x ∈ (signed.map sel).zip vs, Enc R false x.1 x.2.1 x.2.2) (hat : At b.bytes pos vs.bytes) :
    ∃ ds, extensionsLoop (ME := ME) R b sel signed pos = .ok (ds, pos + vs.bytes.length) ∧
      ds.map edValue = vs.values := by
  induction signed generalizing pos vs with
  | nil =>
    cases vs with
    | nil => exact ⟨[], rfl, rfl⟩
    | cons => simp at hl
  | cons e es ih =>
    match vs, hl with
    | v :: vs, hl =>
      have hb : Parts.bytes (v :: vs) = v.2 ++ Parts.bytes vs := rfl
      rw [hb] at hat ⊢
      obtain ⟨a1, a2⟩ := at_append.1 hat
      obtain ⟨d, h1, h2⟩ := decode_complete hk hr (p := .fromExtMeta e.identifier) ⟨rfl, rfl⟩
        (he (sel e, v) (by simp)) a1
      obtain ⟨ds, h3, h4⟩ := ih (by simpa using hl)
        (fun x hx => he x (by rw [List.map_cons, List.zip_cons_cons]; exact List.mem_cons_of_mem _ hx)) a2
      refine ⟨d :: ds, ?_, by simp [Parts.values, h2] at h4 ⊢; exact h4⟩
      unfold extensionsLoop
      rw [mapErr_ok.2 h1, eok_bind]
      dsimp only
      rw [h3, eok_bind]
      simp [Nat.add_assoc]

theorem extensionsLoop_calm {sel : SignedExt → Nat} {signed : List SignedExt} {pos : Nat} :
    Calm (extensionsLoop (ME := ME) R b sel signed pos) := by
  induction signed generalizing pos with
  | nil => exact .ok _
  | cons e es ih =>
    unfold extensionsLoop
    refine .bind ((decode_fine _ _ _).mapErr _) (fun x _ => ?_)
    exact .bind ih (fun y _ => .ok _)

theorem Spec.ItemsAre.append {l l' : List (String × Nat)} {ds ds' : List ED} {bs bs' : Bytes}
    (h : ItemsAre R l ds bs) (h' : ItemsAre R l' ds' bs') : ItemsAre R (l ++ l') (ds ++ ds') (bs ++ bs') := by
  obtain ⟨c, rfl, h1, h2, h3⟩ := h
  obtain ⟨c', rfl, h1', h2', h3'⟩ := h'
  refine ⟨c ++ c', by simp, by simp [h1, h1'], by simp [h2, h2'], ?_⟩
  intro x hx
  rw [List.zip_append (by omega), List.zip_append (by simp; omega)] at hx
  rcases List.mem_append.1 hx with hx | hx
  · exact h3 x hx
  · exact h3' x hx

/-! ### Checks of the extensions -/

/-- What was collected from data looked at. -/
structure CollectedIs (c : CollectedExt) (l : List PD) : Prop where
  era : eras l = c.era.toList
  genesis : genesisHashes l = c.genesisHash.toList
  block : blockHashes l = c.blockHash.toList
  version : (specVersions l).map toString = c.specVersionPrinted.toList

theorem eras_append (l l' : List PD) : eras (l ++ l') = eras l ++ eras l' := List.filterMap_append
theorem genesisHashes_append (l l' : List PD) :
    genesisHashes (l ++ l') = genesisHashes l ++ genesisHashes l' := List.filterMap_append
theorem blockHashes_append (l l' : List PD) : blockHashes (l ++ l') = blockHashes l ++ blockHashes l' :=
  List.filterMap_append
theorem specVersions_append (l l' : List PD) : specVersions (l ++ l') = specVersions l ++ specVersions l' :=
  List.filterMap_append

theorem update_ok {c c' : CollectedExt} {l : List PD} {d : PD} (h : CollectedIs c l) :
    c.update d = .ok c' → CollectedIs c' (l ++ [d]) := by
  intro hu
  obtain ⟨h1, h2, h3, h4⟩ := h
  have key : ∀ c' : CollectedExt, c.era.toList ++ eras [d] = c'.era.toList →
      c.genesisHash.toList ++ genesisHashes [d] = c'.genesisHash.toList →
      c.blockHash.toList ++ blockHashes [d] = c'.blockHash.toList →
      c.specVersionPrinted.toList ++ (specVersions [d]).map toString = c'.specVersionPrinted.toList →
      CollectedIs c' (l ++ [d]) := by
    intro c' k1 k2 k3 k4
    constructor
    · rw [eras_append, h1, k1]
    · rw [genesisHashes_append, h2, k2]
    · rw [blockHashes_append, h3, k3]
    · rw [specVersions_append, List.map_append, h4, k4]
  have hnone : ∀ {α : Type} {o : Option α}, ¬ o.isSome = true → o = none := by
    intro α o ho; cases o <;> simp_all
  unfold CollectedExt.update at hu
  split at hu
  · split at hu
    · cases hu
    · rename_i hn; cases hu
      apply key <;> simp [hnone hn, eras, genesisHashes, blockHashes, specVersions]
  · split at hu
    · cases hu
    · rename_i hn; cases hu
      apply key <;> simp [hnone hn, eras, genesisHashes, blockHashes, specVersions]
  · split at hu
    · cases hu
    · rename_i hn; cases hu
      apply key <;> simp [hnone hn, eras, genesisHashes, blockHashes, specVersions]
  · split at hu
    · cases hu
    · rename_i hn; cases hu
      apply key <;> simp [hnone hn, eras, genesisHashes, blockHashes, specVersions]
  · cases hu
    rename_i n1 n2 n3 n4
    have f1 : eras [d] = [] := by
      unfold eras; cases d <;> simp_all
    have f2 : genesisHashes [d] = [] := by
      unfold genesisHashes; cases d <;> simp_all
    have f3 : blockHashes [d] = [] := by
      unfold blockHashes; cases d <;> simp_all
    have f4 : specVersions [d] = [] := by
      unfold specVersions
      cases d with
      | uint w v s => cases s <;> simp_all
      | _ => rfl
    apply key <;> simp [f1, f2, f3, f4]

theorem update_succeeds {c : CollectedExt} {l : List PD} {d : PD} (h : CollectedIs c l)
    (h1 : (eras (l ++ [d])).length ≤ 1) (h2 : (genesisHashes (l ++ [d])).length ≤ 1)
    (h3 : (blockHashes (l ++ [d])).length ≤ 1) (h4 : (specVersions (l ++ [d])).length ≤ 1) :
    ∃ c', c.update d = .ok c' := by
  have e4 : (specVersions l).length = c.specVersionPrinted.toList.length := by
    rw [← h.version, List.length_map]
  have e1 := congrArg List.length h.era
  have e2 := congrArg List.length h.genesis
  have e3 := congrArg List.length h.block
  unfold CollectedExt.update
  split
  · split
    · rename_i hs
      rw [Option.isSome_iff_exists] at hs
      obtain ⟨x, hx⟩ := hs
      rw [eras_append, List.length_append, e1, hx] at h1
      simp [eras] at h1
    · exact ⟨_, rfl⟩
  · split
    · rename_i hs
      rw [Option.isSome_iff_exists] at hs
      obtain ⟨x, hx⟩ := hs
      rw [genesisHashes_append, List.length_append, e2, hx] at h2
      simp [genesisHashes] at h2
    · exact ⟨_, rfl⟩
  · split
    · rename_i hs
      rw [Option.isSome_iff_exists] at hs
      obtain ⟨x, hx⟩ := hs
      rw [blockHashes_append, List.length_append, e3, hx] at h3
      simp [blockHashes] at h3
    · exact ⟨_, rfl⟩
  · split
    · rename_i hs
      rw [Option.isSome_iff_exists] at hs
      obtain ⟨x, hx⟩ := hs
      rw [specVersions_append, List.length_append, e4, hx] at h4
      simp [specVersions] at h4
    · exact ⟨_, rfl⟩
  · exact ⟨_, rfl⟩

/-- The loop looks at the data one after another. -/
theorem collectLoop_eq (exts : List ED) (c : CollectedExt) :
    collectLoop exts c = (lookedAt exts).foldlM CollectedExt.update c := by
  induction exts generalizing c with
  | nil => rfl
  | cons e es ih =>
    have hl : lookedAt (e :: es) = (lookAt e.data).toList ++ lookedAt es := by
      unfold lookedAt
      rw [List.filterMap_cons]
      cases lookAt e.data <;> rfl
    rw [hl]
    unfold collectLoop
    split
    · rename_i fields hd
      rw [hd]
      split
      · rename_i f
        simp only [lookAt, Option.toList_some, List.singleton_append, List.foldlM_cons]
        congr 1; funext c'; exact ih c'
      · rename_i hn
        have : lookAt (.composite fields) = none := by
          match fields, hn with
          | [], _ => rfl
          | [f], hn => exact absurd rfl (hn f)
          | _ :: _ :: _, _ => rfl
        rw [this]
        exact ih c
    · rename_i hn
      have : lookAt e.data = some e.data := by
        unfold lookAt
        split
        · rename_i h; exact absurd h (hn _)
        · rename_i h; exact absurd h (hn _)
        · rfl
      rw [this]
      simp only [Option.toList_some, List.singleton_append, List.foldlM_cons]
      congr 1; funext c'; exact ih c'

theorem collect_ok {l pre : List PD} {c c' : CollectedExt} (h : CollectedIs c pre)
    (hf : l.foldlM CollectedExt.update c = .ok c') : CollectedIs c' (pre ++ l) := by
  induction l generalizing pre c with
  | nil => cases hf; simpa using h
  | cons d l ih =>
    rw [List.foldlM_cons] at hf
    obtain ⟨c1, h1, h2⟩ := ebind_ok.1 hf
    have := ih (update_ok h h1) h2
    simpa using this

theorem collect_succeeds {l pre : List PD} {c : CollectedExt} (h : CollectedIs c pre)
    (h1 : (eras (pre ++ l)).length ≤ 1) (h2 : (genesisHashes (pre ++ l)).length ≤ 1)
    (h3 : (blockHashes (pre ++ l)).length ≤ 1) (h4 : (specVersions (pre ++ l)).length ≤ 1) :
    ∃ c', l.foldlM CollectedExt.update c = .ok c' := by
  induction l generalizing pre c with
  | nil => exact ⟨c, rfl⟩
  | cons d l ih =>
    have hx : pre ++ d :: l = (pre ++ [d]) ++ l := by simp
    rw [hx] at h1 h2 h3 h4
    have k1 : (eras (pre ++ [d])).length ≤ 1 := by rw [eras_append, List.length_append] at h1; omega
    have k2 : (genesisHashes (pre ++ [d])).length ≤ 1 := by rw [genesisHashes_append, List.length_append] at h2; omega
    have k3 : (blockHashes (pre ++ [d])).length ≤ 1 := by rw [blockHashes_append, List.length_append] at h3; omega
    have k4 : (specVersions (pre ++ [d])).length ≤ 1 := by rw [specVersions_append, List.length_append] at h4; omega
    obtain ⟨c1, hc⟩ := update_succeeds h k1 k2 k3 k4
    obtain ⟨c', hc'⟩ := ih (update_ok h hc) h1 h2 h3 h4
    exact ⟨c', by rw [List.foldlM_cons, hc, eok_bind, hc']⟩

theorem collectedIs_empty : CollectedIs {} [] := ⟨rfl, rfl, rfl, rfl⟩

theorem checkImmortal_iff {c : CollectedExt} : checkImmortal (ME := ME) c = .ok () ↔
    (c.era = some .immortal → ∀ h, c.blockHash = some h → ∀ g, c.genesisHash = some g → h = g) := by
  unfold checkImmortal
  split
  · rename_i h1
    split
    · rename_i h h2
      split
      · rename_i g h3
        split <;> simp_all
        · intro h; exact absurd h.symm (by assumption)
      · simp_all
    · simp_all
  · rename_i h1
    simp_all

theorem checkCollected_iff {c : CollectedExt} {version : String} {expected : Option Bytes} :
    checkCollected (ME := ME) c version expected = .ok () ↔
      c.specVersionPrinted = some version ∧
      (∃ g, c.genesisHash = some g ∧ ∀ e, expected = some e → g = e) ∧
      (c.era = some .immortal → ∀ h, c.blockHash = some h → ∀ g, c.genesisHash = some g → h = g) := by
  rw [← checkImmortal_iff (ME := ME)]
  unfold checkCollected
  split
  · rename_i found hf
    split
    · simp_all
    · rename_i hv
      have hv : found = version := by simpa using hv
      subst hv
      split
      · rename_i g hg
        split
        · split <;> simp_all
        · simp_all
      · simp_all
  · simp_all

theorem option_toList_eq {α : Type} {o : Option α} {a : α} : o.toList = [a] ↔ o = some a := by
  cases o <;> simp

theorem checkExtensions_iff' {exts : List ED} {version : String} {expected : Option Bytes} :
    checkExtensions (ME := ME) exts version expected = .ok () ↔ Accepted exts version expected := by
  unfold checkExtensions
  rw [collectLoop_eq]
  constructor
  · intro h
    split at h
    · rename_i c hc
      have hi := collect_ok collectedIs_empty hc
      simp only [List.nil_append] at hi
      obtain ⟨h1, ⟨g, h2, h3⟩, h4⟩ := checkCollected_iff.1 h
      have hv := hi.version
      rw [h1] at hv
      have hg := hi.genesis
      rw [h2] at hg
      constructor
      · simp only [Option.toList_some, List.map_eq_singleton_iff] at hv
        obtain ⟨v, hv1, hv2⟩ := hv
        exact ⟨v, hv1, hv2⟩
      · exact ⟨g, hg, h3⟩
      · rw [hi.era]; exact Option.length_toList_le
      · rw [hi.block]; exact Option.length_toList_le
      · rw [hi.era, hi.block, hi.genesis]
        intro he h hh g hg
        exact h4 (by simpa using he) h (by simpa using hh) g (by simpa using hg)
    · cases h
  · intro ha
    obtain ⟨v, hv, hv'⟩ := ha.specVersion
    obtain ⟨g, hg, hg'⟩ := ha.genesis
    obtain ⟨c, hc⟩ := collect_succeeds (l := lookedAt exts) collectedIs_empty (by simpa using ha.oneEra)
      (by simp [hg]) (by simpa using ha.oneBlockHash) (by simp [hv])
    rw [hc]
    have hi := collect_ok collectedIs_empty hc
    simp only [List.nil_append] at hi
    refine checkCollected_iff.2 ⟨?_, ⟨g, ?_, hg'⟩, ?_⟩
    · have := hi.version
      rw [hv] at this
      simp only [List.map_cons, List.map_nil, hv'] at this
      exact option_toList_eq.1 this.symm
    · have := hi.genesis
      rw [hg] at this
      exact option_toList_eq.1 this.symm
    · intro h1 h h2 g h3
      refine ha.immortal ?_ h ?_ g ?_
      · rw [hi.era, h1]; simp
      · rw [hi.block, h2]; simp
      · rw [hi.genesis, h3]; simp

theorem checkExtensions_calm {exts : List ED} {version : String} {expected : Option Bytes} :
    Calm (checkExtensions (ME := ME) exts version expected) := by
  unfold checkExtensions
  split
  · unfold checkCollected checkImmortal
    repeat' split
    all_goals first | exact .ok _ | exact .err _
  · exact .err _

end Verif
