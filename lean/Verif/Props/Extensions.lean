import Verif.Props.Transaction
/-!
# Checks of the extensions, and whole transactions
-/
namespace Verif
open Spec

variable {ME : Type} {M : Metadata ME} {R : Registry} {b : Buf}

/-! ### C26, C27, C28: what is accepted -/

/-- C26, C27, C28. The checks pass exactly if the extensions are acceptable. -/
theorem checkExtensions_iff {exts : List ED} {version : String} {expected : Option Bytes} :
    checkExtensions (ME := ME) exts version expected = .ok () ↔ Accepted exts version expected :=
  checkExtensions_iff'

/-- C26. No spec version among the extensions: error. -/
theorem checkExtensions_noSpecVersion {exts : List ED} {version : String} {expected : Option Bytes}
    (h : specVersions (lookedAt exts) = []) :
    ∃ e, checkExtensions (ME := ME) exts version expected = .error (.err (.extensionsList e)) := by
  unfold checkExtensions
  rw [collectLoop_eq]
  split
  · rename_i c hc
    have hi := (collect_ok collectedIs_empty hc).version
    rw [List.nil_append, h] at hi
    have : c.specVersionPrinted = none := by
      cases hx : c.specVersionPrinted with
      | none => rfl
      | some x => rw [hx] at hi; cases hi
    unfold checkCollected
    rw [this]
    exact ⟨_, rfl⟩
  · exact ⟨_, rfl⟩

/-- C26. One spec version other than that of the metadata: the error tells both, if
there are no other duplicates. -/
theorem checkExtensions_wrongSpecVersion {exts : List ED} {version : String} {expected : Option Bytes} {v : Nat}
    (h : specVersions (lookedAt exts) = [v]) (hne : toString v ≠ version)
    (h1 : (genesisHashes (lookedAt exts)).length ≤ 1) (h2 : (eras (lookedAt exts)).length ≤ 1)
    (h3 : (blockHashes (lookedAt exts)).length ≤ 1) :
    checkExtensions (ME := ME) exts version expected =
      .error (.err (.wrongSpecVersion (toString v) version)) := by
  obtain ⟨c, hc⟩ := collect_succeeds (l := lookedAt exts) collectedIs_empty (by simpa using h2)
    (by simpa using h1) (by simpa using h3) (by simp [h])
  unfold checkExtensions
  rw [collectLoop_eq, hc]
  have hi := (collect_ok collectedIs_empty hc).version
  rw [List.nil_append, h] at hi
  have : c.specVersionPrinted = some (toString v) := option_toList_eq.1 hi.symm
  simp only [checkCollected, this]
  rw [if_pos hne]

/-- C27. One genesis hash other than the expected one: the error tells both. -/
theorem checkExtensions_wrongGenesisHash {exts : List ED} {version : String} {g e : Bytes} {v : Nat}
    (h : specVersions (lookedAt exts) = [v]) (hv : toString v = version)
    (h1 : genesisHashes (lookedAt exts) = [g]) (hne : g ≠ e) (h2 : (eras (lookedAt exts)).length ≤ 1)
    (h3 : (blockHashes (lookedAt exts)).length ≤ 1) :
    checkExtensions (ME := ME) exts version (some e) = .error (.err (.wrongGenesisHash g e)) := by
  obtain ⟨c, hc⟩ := collect_succeeds (l := lookedAt exts) collectedIs_empty (by simpa using h2)
    (by simp [h1]) (by simpa using h3) (by simp [h])
  unfold checkExtensions
  rw [collectLoop_eq, hc]
  have hi := collect_ok collectedIs_empty hc
  rw [List.nil_append] at hi
  have e1 : c.specVersionPrinted = some version := by
    have := hi.version; rw [h] at this; simp only [List.map_cons, List.map_nil, hv] at this
    exact option_toList_eq.1 this.symm
  have e2 : c.genesisHash = some g := by
    have := hi.genesis; rw [h1] at this
    exact option_toList_eq.1 this.symm
  simp only [checkCollected, e1, e2]
  rw [if_neg (by simp), if_pos hne]

/-- C28. An immortal era with a block hash other than the genesis hash is an error. -/
theorem checkExtensions_immortalMismatch {exts : List ED} {version : String} {expected : Option Bytes}
    {g h : Bytes} {v : Nat} (hs : specVersions (lookedAt exts) = [v]) (hv : toString v = version)
    (h1 : genesisHashes (lookedAt exts) = [g]) (h2 : ∀ e, expected = some e → g = e)
    (h3 : eras (lookedAt exts) = [.immortal]) (h4 : blockHashes (lookedAt exts) = [h]) (hne : g ≠ h) :
    checkExtensions (ME := ME) exts version expected = .error (.err .immortalHashMismatch) := by
  obtain ⟨c, hc⟩ := collect_succeeds (l := lookedAt exts) collectedIs_empty (by simp [h3])
    (by simp [h1]) (by simp [h4]) (by simp [hs])
  unfold checkExtensions
  rw [collectLoop_eq, hc]
  have hi := collect_ok collectedIs_empty hc
  rw [List.nil_append] at hi
  have e1 : c.specVersionPrinted = some version := by
    have := hi.version; rw [hs] at this; simp only [List.map_cons, List.map_nil, hv] at this
    exact option_toList_eq.1 this.symm
  have e2 : c.genesisHash = some g := by
    have := hi.genesis; rw [h1] at this
    exact option_toList_eq.1 this.symm
  have e3 : c.era = some .immortal := by
    have := hi.era; rw [h3] at this
    exact option_toList_eq.1 this.symm
  have e4 : c.blockHash = some h := by
    have := hi.block; rw [h4] at this
    exact option_toList_eq.1 this.symm
  simp only [checkCollected, checkImmortal, e1, e2, e3, e4]
  rw [if_neg (by simp)]
  cases expected with
  | none => simp only; rw [if_pos hne]
  | some e =>
    simp only
    rw [if_neg (by simp [h2 e rfl]), if_pos hne]

example : decodeExtensionsUnmarked Example.chain Example.payload 8 (some Example.genesis) = .ok
    [⟨.tuple [], []⟩, ⟨.tuple [], []⟩,
     ⟨.composite [⟨none, none, "", ⟨.era .immortal, [⟨"", ["sp_runtime", "generic", "era", "Era"]⟩]⟩⟩],
       [⟨"", ["frame_system", "CheckMortality"]⟩]⟩,
     ⟨.uint .u32 9 .specVersion, []⟩,
     ⟨.genesisHash Example.genesis, [⟨"", ["primitive_types", "H256"]⟩]⟩,
     ⟨.blockHash Example.genesis, [⟨"", ["primitive_types", "H256"]⟩]⟩] := rfl

example : decodeExtensionsUnmarked { Example.chain with specNameVersion := .ok ⟨"8", ""⟩ } Example.payload 8 none =
    .error (.err (.wrongSpecVersion "9" "8")) := rfl

example : decodeExtensionsUnmarked Example.chain Example.payload 8 (some [1]) =
    .error (.err (.wrongGenesisHash Example.genesis [1])) := rfl

example : decodeExtensionsUnmarked Example.chain
      (Buf.ofBytes ([0] ++ [9, 0, 0, 0] ++ Example.genesis ++ List.replicate 32 0)) 0 none =
    .error (.err .immortalHashMismatch) := rfl

example : decodeExtensionsUnmarked Example.chain (Buf.ofBytes (Example.extBytes ++ [7])) 0 none =
    .error (.err (.someDataNotUsedExtensions 69)) := rfl

/-! ### What this means for the bytes of the standard extensions -/

theorem leaf_uint {h : Hint} {is : List Info} {id : Nat} {t : Typ} {d : ED} {bs : Bytes} {w : UW}
    (hr : R.resolve id = .ok t) (ht : IsUIntTy w t) (hs : Shown R h is id d)
    (he : Enc R false id (edValue d) bs) :
    ∃ v, d.data = .uint w v (uintLabel h) ∧ v < 2 ^ (8 * w.bytes) ∧ bs = leBytes w.bytes v := by
  obtain ⟨hst, p, hd, hw⟩ := ht
  have hu : ∀ {w'}, IsUInt p w' → w' = w := by intro w' h'; cases hw <;> cases h' <;> rfl
  have hsp : ∀ {s}, special t.path = some s → s = .multiSignature ∨ (∃ i, s = .pallet i) ∨ s = .extrinsic := by
    intro s h
    unfold Structural at hst
    rw [h] at hst
    cases s <;> simp_all
  cases hs with
  | uint hr' _ hd' hw' =>
    rw [hr] at hr'; cases hr'; rw [hd] at hd'; cases hd'
    have := hu hw'; subst this
    refine ⟨_, rfl, ?_⟩
    generalize hv : edValue _ = v at he
    cases he with
    | primitive hr' _ hd' hp =>
      rw [hr] at hr'; cases hr'; rw [hd] at hd'; cases hd'
      cases hp with
      | uint hw' hlt =>
        simp only [edValue, pdValue, Value.uint.injEq] at hv
        obtain ⟨rfl, rfl⟩ := hv
        exact ⟨hlt, rfl⟩
      | _ => simp [edValue, pdValue] at hv
    | newtype hr' _ hd' | compact hr' _ hd' => rw [hr] at hr'; cases hr'; rw [hd] at hd'; cases hd'
    | _ => simp [edValue, pdValue] at hv
  | text hr' _ hd' | bool hr' _ hd' | char hr' _ hd' | u256 hr' _ hd' =>
    rw [hr] at hr'; cases hr'; rw [hd] at hd'; cases hd'; cases hw
  | int hr' _ hd' hi =>
    rw [hr] at hr'; cases hr'; rw [hd] at hd'; cases hd'; cases hw <;> cases hi
  | struct hr' _ hd' | never hr' _ hd' | variant hr' _ hd' | tuple hr' _ hd' | compact hr' _ hd' | bits hr' _ hd' =>
    rw [hr] at hr'; cases hr'; rw [hd] at hd'; cases hd'
  | list hr' _ hd' | collected hr' _ hd' =>
    rw [hr] at hr'; cases hr'; rw [hd] at hd'; rcases hd' with hd' | hd' <;> cases hd'
  | signature hr' hsig =>
    obtain ⟨_, vs, v, f, hd', _⟩ := hsig
    rw [hr] at hr'; cases hr'; rw [hd] at hd'; cases hd'
  | pallet hr' _ hd' => rw [hr] at hr'; cases hr'; rw [hd] at hd'; cases hd'
  | fixed hr' hs' | hash hr' hs' | era hr' hs' | per hr' hs' =>
    rw [hr] at hr'; cases hr'; have := hsp hs'; simp at this

theorem leaf_hash {h : Hint} {is : List Info} {id : Nat} {t : Typ} {d : ED} {bs : Bytes}
    (hr : R.resolve id = .ok t) (ht : IsHashTy t) (hs : Shown R h is id d)
    (he : Enc R false id (edValue d) bs) : d.data = labelledHash h bs ∧ bs.length = 32 := by
  unfold IsHashTy at ht
  have hno : ¬ Structural t.path := by unfold Structural; rw [ht]; simp
  have hval : ∀ x, pdValue (labelledHash h x) = .hash x := by
    intro x; unfold labelledHash; split
    · rfl
    · split <;> rfl
  cases hs with
  | hash hr' hs' =>
    rw [hr] at hr'; cases hr'
    simp only [edValue, hval] at he
    cases he with
    | hash _ _ hl => exact ⟨rfl, hl⟩
    | newtype hr' hs' _ | primitive hr' hs' _ | compact hr' hs' _ => rw [hr] at hr'; cases hr'; exact absurd hs' hno
  | fixed hr' hs' | era hr' hs' | per hr' hs' => rw [hr] at hr'; cases hr'; rw [ht] at hs'; cases hs'
  | signature hr' hs' => rw [hr] at hr'; cases hr'; have := hs'.1; rw [ht] at this; cases this
  | pallet hr' hs' => rw [hr] at hr'; cases hr'; rw [ht] at hs'; cases hs'
  | text hr' hs' | bool hr' hs' | char hr' hs' | u256 hr' hs' | int hr' hs' | uint hr' hs' | struct hr' hs'
  | never hr' hs' | variant hr' hs' | tuple hr' hs' | compact hr' hs' | bits hr' hs' | list hr' hs'
  | collected hr' hs' =>
    rw [hr] at hr'; cases hr'; exact absurd hs' hno

theorem leaf_era {h : Hint} {is : List Info} {id : Nat} {t : Typ} {d : ED} {bs : Bytes}
    (hr : R.resolve id = .ok t) (ht : IsEraTy t) (hs : Shown R h is id d)
    (he : Enc R false id (edValue d) bs) : ∃ e, d.data = .era e ∧ EraOk e ∧ bs = eraEncode e := by
  unfold IsEraTy at ht
  have hno : ¬ Structural t.path := by unfold Structural; rw [ht]; simp
  cases hs with
  | era hr' hs' =>
    rw [hr] at hr'; cases hr'
    simp only [edValue, pdValue] at he
    cases he with
    | era _ _ hl => exact ⟨_, rfl, hl, rfl⟩
    | newtype hr' hs' _ | compact hr' hs' _ => rw [hr] at hr'; cases hr'; exact absurd hs' hno
    | primitive hr' hs' _ => rw [hr] at hr'; cases hr'; exact absurd hs' hno
  | fixed hr' hs' | hash hr' hs' | per hr' hs' => rw [hr] at hr'; cases hr'; rw [ht] at hs'; cases hs'
  | signature hr' hs' => rw [hr] at hr'; cases hr'; have := hs'.1; rw [ht] at this; cases this
  | pallet hr' hs' => rw [hr] at hr'; cases hr'; rw [ht] at hs'; cases hs'
  | text hr' hs' | bool hr' hs' | char hr' hs' | u256 hr' hs' | int hr' hs' | uint hr' hs' | struct hr' hs'
  | never hr' hs' | variant hr' hs' | tuple hr' hs' | compact hr' hs' | bits hr' hs' | list hr' hs'
  | collected hr' hs' =>
    rw [hr] at hr'; cases hr'; exact absurd hs' hno

/-- What is known of data of a type is known of the data looked at, for a type that is
such or is a single-field struct around it. -/
theorem holds_leaf {P : Typ → Prop} {T : PD → Bytes → Prop} {h : Hint}
    (leaf : ∀ {h' id t d bs is}, (h ≠ .none → h' = h) → R.resolve id = .ok t → P t → Shown R h' is id d →
      Enc R false id (edValue d) bs → T d.data bs)
    (hnc : ∀ {fs bs}, ¬ T (.composite fs) bs) {id : Nat} {d : ED} {bs : Bytes} (hh : Holds R id P)
    (hs : Shown R h [] id d) (he : Enc R false id (edValue d) bs) : ∃ d', lookAt d.data = some d' ∧ T d' bs := by
  obtain ⟨t, hr, hP | ⟨hst, f, t', hd, hr', hP⟩⟩ := hh
  · have := leaf (fun _ => rfl) hr hP hs he
    refine ⟨d.data, ?_, this⟩
    generalize d.data = x at this
    cases x with
    | composite fs => exact absurd this hnc
    | _ => rfl
  · have hno : ∀ s, special t.path = some s → s = .multiSignature ∨ (∃ i, s = .pallet i) ∨ s = .extrinsic := by
      intro s h
      unfold Structural at hst
      rw [h] at hst
      cases s <;> simp_all
    cases hs with
    | @struct _ _ _ t2 fields ds hr2 _ hd2 hl hn hsh =>
      rw [hr] at hr2; cases hr2; rw [hd] at hd2; cases hd2
      match ds, hl with
      | [fd], _ =>
        have hsh := hsh (f, fd) (by simp)
        have hf : h ≠ .none → first (handed [f].length h) (fieldLabel f) = h := by
          intro hne
          unfold first handed
          simp [hne]
        dsimp only at hsh
        have hv : edValue ⟨.composite [fd], [] ++ ownInfo t⟩ = edValue fd.data := by
          obtain ⟨_, _, _, x⟩ := fd; rfl
        rw [hv] at he
        have he' : Enc R false f.ty (edValue fd.data) bs := by
          generalize edValue fd.data = v at he
          cases he with
          | newtype hr2 _ hd2 he => rw [hr] at hr2; cases hr2; rw [hd] at hd2; cases hd2; exact he
          | fixed hr2 hs2 | hash hr2 hs2 | era hr2 hs2 | per hr2 hs2 =>
            rw [hr] at hr2; cases hr2; have := hno _ hs2; simp at this
          | signature hr2 hs2 =>
            obtain ⟨_, vs, v, f, hd', _⟩ := hs2
            rw [hr] at hr2; cases hr2; rw [hd] at hd'; cases hd'
          | pallet hr2 hs2 =>
            obtain ⟨_, vs, v, f, t', hd', _⟩ := hs2
            rw [hr] at hr2; cases hr2; rw [hd] at hd'; cases hd'
          | record hr2 _ hd2 hlen =>
            rw [hr] at hr2; cases hr2; rw [hd] at hd2; cases hd2; simp at hlen
          | unit hr2 _ hd2 | never hr2 _ hd2 | variant hr2 _ hd2 | sequence hr2 _ hd2 | array hr2 _ hd2
          | tuple hr2 _ hd2 | primitive hr2 _ hd2 | compact hr2 _ hd2 | bits hr2 _ hd2 =>
            rw [hr] at hr2; cases hr2; rw [hd] at hd2; cases hd2
        exact ⟨_, rfl, leaf hf hr' hP hsh he'⟩
    | text hr' _ hd' | bool hr' _ hd' | char hr' _ hd' | u256 hr' _ hd' | int hr' _ hd' | uint hr' _ hd'
    | never hr' _ hd' | variant hr' _ hd' | tuple hr' _ hd' | compact hr' _ hd' | bits hr' _ hd' =>
      rw [hr] at hr'; cases hr'; rw [hd] at hd'; cases hd'
    | list hr' _ hd' | collected hr' _ hd' =>
      rw [hr] at hr'; cases hr'; rw [hd] at hd'; rcases hd' with hd' | hd' <;> cases hd'
    | signature hr' hsig =>
      obtain ⟨_, vs, v, f, hd', _⟩ := hsig
      rw [hr] at hr'; cases hr'; rw [hd] at hd'; cases hd'
    | pallet hr' _ hd' => rw [hr] at hr'; cases hr'; rw [hd] at hd'; cases hd'
    | fixed hr' hs' | hash hr' hs' | era hr' hs' | per hr' hs' =>
      rw [hr] at hr'; cases hr'; have := hno _ hs'; simp at this

theorem mem_zip3 {α β γ : Type} {l : List α} {l' : List β} {l'' : List γ} {i : Nat} {a : α}
    (h : l[i]? = some a) (h1 : l'.length = l.length) (h2 : l''.length = l.length) :
    ∃ b c, l'[i]? = some b ∧ l''[i]? = some c ∧ (a, b, c) ∈ l.zip (l'.zip l'') := by
  obtain ⟨hi, rfl⟩ := List.getElem?_eq_some_iff.1 h
  refine ⟨l'[i], l''[i], List.getElem?_eq_getElem _, List.getElem?_eq_getElem _, ?_⟩
  rw [List.mem_iff_getElem]
  exact ⟨i, by simp; omega, by simp⟩

theorem extItems_ty {signed : List SignedExt} {k : Nat} {e : SignedExt} (h : signed[k]? = some e) :
    (extItems signed)[k]? = some (e.identifier, e.ty) := by
  obtain ⟨hi, rfl⟩ := List.getElem?_eq_some_iff.1 h
  unfold extItems
  rw [List.getElem?_append_left (by simpa using hi)]
  simp [h]

theorem extItems_additional {signed : List SignedExt} {k : Nat} {e : SignedExt} (h : signed[k]? = some e) :
    (extItems signed)[signed.length + k]? = some (e.identifier, e.additionalSigned) := by
  unfold extItems
  rw [List.getElem?_append_right (by simp)]
  simp [h]

theorem mem_lookedAt {exts : List ED} {d : ED} {x : PD} {i : Nat} (h : exts[i]? = some d)
    (hx : lookAt d.data = some x) : x ∈ lookedAt exts := by
  unfold lookedAt
  rw [List.mem_filterMap]
  exact ⟨d, List.mem_of_getElem? h, hx⟩

/-- A type of an extension that the checks look at: an integer, a hash or an era, perhaps in a
single-field struct. -/
def Watched (R : Registry) (id : Nat) : Prop :=
  (∃ w, Holds R id (IsUIntTy w)) ∨ Holds R id IsHashTy ∨ Holds R id IsEraTy

/-- What acceptance means for the bytes, if the data of the watched items is that of the bytes. -/
theorem accepted_bytes {signed : List SignedExt} {exts : List ED} {chunks : List Bytes} {version : String}
    {expected : Option Bytes} (ha : Accepted exts version expected)
    (item : ∀ {i : Nat} {name : String} {id : Nat}, (extItems signed)[i]? = some (name, id) → Watched R id →
      ∃ d c, exts[i]? = some d ∧ chunks[i]? = some c ∧ Enc R false id (edValue d) c ∧
        Shown R (extLabel name) [] id d) :
    (∀ (k : Nat) (e : SignedExt) w, signed[k]? = some e → e.identifier = "CheckSpecVersion" →
        Holds R e.additionalSigned (IsUIntTy w) →
        ∃ v, chunks[signed.length + k]? = some (leBytes w.bytes v) ∧ v < 2 ^ (8 * w.bytes) ∧
          toString v = version) ∧
      (∀ (k : Nat) (e : SignedExt) g, signed[k]? = some e → e.identifier = "CheckGenesis" →
        Holds R e.additionalSigned IsHashTy → expected = some g →
        chunks[signed.length + k]? = some g) ∧
      (∀ (i j k : Nat) (e₁ e₂ e₃ : SignedExt), signed[i]? = some e₁ → Holds R e₁.ty IsEraTy →
        chunks[i]? = some [0] →
        signed[j]? = some e₂ → e₂.identifier = "CheckMortality" → Holds R e₂.additionalSigned IsHashTy →
        signed[k]? = some e₃ → e₃.identifier = "CheckGenesis" → Holds R e₃.additionalSigned IsHashTy →
        chunks[signed.length + j]? = chunks[signed.length + k]?) := by
  -- the genesis hash part
  have gen : ∀ {k : Nat} {e : SignedExt}, signed[k]? = some e → e.identifier = "CheckGenesis" →
      Holds R e.additionalSigned IsHashTy →
      ∃ c, chunks[signed.length + k]? = some c ∧ c ∈ genesisHashes (lookedAt exts) := by
    intro k e hk hid hh
    obtain ⟨d, c, g1, g2, g3, g4⟩ := item (extItems_additional hk) (.inr (.inl hh))
    rw [hid, show extLabel "CheckGenesis" = .checkGenesis from rfl] at g4
    obtain ⟨x, hx, hT⟩ := holds_leaf (T := fun d bs => d = .genesisHash bs) (h := .checkGenesis)
      (fun a0 a1 a2 a3 a4 => by cases a0 (by simp); exact (leaf_hash a1 a2 a3 a4).1) (by simp) hh g4 g3
    refine ⟨c, g2, ?_⟩
    unfold genesisHashes
    rw [List.mem_filterMap]
    exact ⟨x, mem_lookedAt g1 hx, by rw [hT]⟩
  refine ⟨?_, ?_, ?_⟩
  · intro k e w hk hid hh
    obtain ⟨d, c, g1, g2, g3, g4⟩ := item (extItems_additional hk) (.inl ⟨w, hh⟩)
    rw [hid, show extLabel "CheckSpecVersion" = .checkSpecVersion from rfl] at g4
    obtain ⟨x, hx, v, hv, hlt, hb⟩ := holds_leaf
      (T := fun d bs => ∃ v, d = .uint w v .specVersion ∧ v < 2 ^ (8 * w.bytes) ∧ bs = leBytes w.bytes v)
      (h := .checkSpecVersion)
      (fun a0 a1 a2 a3 a4 => by cases a0 (by simp); exact leaf_uint a1 a2 a3 a4) (by simp) hh g4 g3
    subst hb
    refine ⟨v, g2, hlt, ?_⟩
    obtain ⟨v', hv', hv''⟩ := ha.specVersion
    have : v ∈ specVersions (lookedAt exts) := by
      unfold specVersions
      rw [List.mem_filterMap]
      exact ⟨x, mem_lookedAt g1 hx, by rw [hv]⟩
    rw [hv', List.mem_singleton] at this
    rw [this]; exact hv''
  · intro k e g hk hid hh hg
    obtain ⟨c, k1, k2⟩ := gen hk hid hh
    obtain ⟨g', hg', hg''⟩ := ha.genesis
    rw [hg', List.mem_singleton] at k2
    rw [k1, k2, hg'' g hg]
  · intro i j k e₁ e₂ e₃ hi hh hc hj hid hh2 hk hid3 hh3
    obtain ⟨c3', k1, k2⟩ := gen hk hid3 hh3
    obtain ⟨d, c, g1, g2, g3, g4⟩ := item (extItems_ty hi) (.inr (.inr hh))
    rw [hc] at g2; cases g2
    obtain ⟨x, hx, er, hT, hok, hb⟩ := holds_leaf (T := fun d bs => ∃ e, d = .era e ∧ EraOk e ∧ bs = eraEncode e)
      (fun _ a1 a2 a3 a4 => leaf_era a1 a2 a3 a4) (by simp) hh g4 g3
    have himm : er = .immortal := by
      cases er with
      | immortal => rfl
      | mortal p q =>
        have := congrArg List.length hb
        simp [eraEncode, leBytes] at this
    subst himm
    obtain ⟨d', c', m1, m2, m3, m4⟩ := item (extItems_additional hj) (.inr (.inl hh2))
    rw [hid, show extLabel "CheckMortality" = .checkMortality from rfl] at m4
    obtain ⟨y, hy, hT'⟩ := holds_leaf (T := fun d bs => d = .blockHash bs) (h := .checkMortality)
      (fun a0 a1 a2 a3 a4 => by cases a0 (by simp); exact (leaf_hash a1 a2 a3 a4).1) (by simp) hh2 m4 m3
    have e1 : Era.immortal ∈ eras (lookedAt exts) := by
      unfold eras
      rw [List.mem_filterMap]
      exact ⟨x, mem_lookedAt g1 hx, by rw [hT]⟩
    have e2 : c' ∈ blockHashes (lookedAt exts) := by
      unfold blockHashes
      rw [List.mem_filterMap]
      exact ⟨y, mem_lookedAt m1 hy, by rw [hT']⟩
    rw [m2, k1, ha.immortal e1 c' e2 c3' k2]

/-- C26, C27, C28 on the level of bytes. When extensions are decoded, the data after the
start of the extensions are cut into the parts of the extensions (as in C25), and
* the additional part of an extension `CheckSpecVersion` is the little-endian spec
  version of the metadata;
* the additional part of `CheckGenesis` is the expected genesis hash, if one is given;
* if the era part of an extension is the zero byte of the immortal era, the additional
  part of `CheckMortality` equals the additional part of `CheckGenesis`. -/
theorem decodeExtensionsUnmarked_bytes {pos : Nat} {expected : Option Bytes} {exts : List ED}
    (h : decodeExtensionsUnmarked M b pos expected = .ok exts) :
    ∃ signed spec, ∃ chunks : List Bytes, M.signedExtensions = .ok signed ∧ M.specNameVersion = .ok spec ∧
      chunks.flatten = b.bytes.drop pos ∧ chunks.length = 2 * signed.length ∧
      (∀ (k : Nat) (name : String) (id : Nat), (extItems signed)[k]? = some (name, id) → ∃ c v, chunks[k]? = some c ∧ Enc M.types false id v c) ∧
      (∀ (k : Nat) (e : SignedExt) w, signed[k]? = some e → e.identifier = "CheckSpecVersion" →
        Holds M.types e.additionalSigned (IsUIntTy w) →
        ∃ v, chunks[signed.length + k]? = some (leBytes w.bytes v) ∧ v < 2 ^ (8 * w.bytes) ∧
          toString v = spec.printedSpecVersion) ∧
      (∀ (k : Nat) (e : SignedExt) g, signed[k]? = some e → e.identifier = "CheckGenesis" →
        Holds M.types e.additionalSigned IsHashTy → expected = some g →
        chunks[signed.length + k]? = some g) ∧
      (∀ (i j k : Nat) (e₁ e₂ e₃ : SignedExt), signed[i]? = some e₁ → Holds M.types e₁.ty IsEraTy →
        chunks[i]? = some [0] →
        signed[j]? = some e₂ → e₂.identifier = "CheckMortality" → Holds M.types e₂.additionalSigned IsHashTy →
        signed[k]? = some e₃ → e₃.identifier = "CheckGenesis" → Holds M.types e₃.additionalSigned IsHashTy →
        chunks[signed.length + j]? = chunks[signed.length + k]?) := by
  obtain ⟨signed, spec, h1, h2, _, ⟨chunks, c1, c2, c3, c4⟩, ha⟩ := decodeExtensionsUnmarked_sound h
  have hlen : (extItems signed).length = 2 * signed.length := by simp [extItems]; omega
  -- the data and bytes of an item
  have item : ∀ {i : Nat} {name : String} {id : Nat}, (extItems signed)[i]? = some (name, id) →
      ∃ d c, exts[i]? = some d ∧ chunks[i]? = some c ∧ Enc M.types false id (edValue d) c ∧
        Shown M.types (extLabel name) [] id d := by
    intro i name id hi
    obtain ⟨d, c, g1, g2, g3⟩ := mem_zip3 hi c3 c2
    exact ⟨d, c, g1, g2, c4 _ g3⟩
  refine ⟨signed, spec, chunks, h1, h2, c1, by omega, ?_, accepted_bytes ha (fun hi _ => item hi)⟩
  intro k name id hk
  obtain ⟨d, c, _, g2, g3, _⟩ := item hk
  exact ⟨c, _, g2, g3⟩

example : Holds Example.chain.types 7 IsEraTy ∧ Holds Example.chain.types 1 (IsUIntTy .u32) ∧
    Holds Example.chain.types 5 IsHashTy :=
  ⟨⟨_, rfl, .inr ⟨trivial, _, _, rfl, rfl, rfl⟩⟩, ⟨_, rfl, .inl ⟨trivial, _, rfl, .u32⟩⟩, ⟨_, rfl, .inl rfl⟩⟩

/-- Finding: only one level of structs is looked at. A second, different genesis hash
inside a struct with two fields is not seen by the checks. -/
example : Accepted
    [⟨.uint .u32 9 .specVersion, []⟩, ⟨.genesisHash [1], []⟩,
     ⟨.composite [⟨none, none, "", ⟨.genesisHash [2], []⟩⟩, ⟨none, none, "", ⟨.uint .u8 1 .specVersion, []⟩⟩], []⟩]
    "9" (some [1]) where
  specVersion := ⟨9, rfl, rfl⟩
  genesis := ⟨[1], rfl, by rintro e ⟨⟩; rfl⟩
  oneEra := by decide
  oneBlockHash := by decide
  immortal := by intro h; cases h

/-! ### C29 whole transactions -/

/-- C29. When both parts of a transaction are decoded, the payload is the compact length
of the call, the call, and the extensions; and nothing else. The length fits 32 bits. -/
theorem parseTransaction_sound_length {expected : Option Bytes} {r : TransactionParsed ME} {c : Call}
    (h : parseTransaction M b expected = .ok r) (hc : r.callResult = .ok c) :
    ∃ id signed spec, ∃ callBytes extBytes : Bytes, M.callTy = .ok id ∧ M.signedExtensions = .ok signed ∧
      M.specNameVersion = .ok spec ∧
      b.bytes = compactEncode callBytes.length ++ callBytes ++ extBytes ∧ callBytes.length < 2 ^ 32 ∧
      IsCall M.types id c callBytes ∧ ItemsAre M.types (extItems signed) r.extensions extBytes ∧
      Accepted r.extensions spec.printedSpecVersion expected := by
  unfold parseTransaction at h
  obtain ⟨m, h1, h⟩ := ebind_ok.1 h
  obtain ⟨exts, h2, h⟩ := ebind_ok.1 h
  have hcall : decodeAsCall M m = .ok c ∧ r.extensions = exts := by
    split at h
    · rename_i c' hc'; cases h; cases hc; exact ⟨hc', rfl⟩
    · cases h; cases hc
    · cases h
    · cases h
  obtain ⟨hcall, rfl⟩ := hcall
  obtain ⟨id, g1, g2⟩ := decodeAsCall_sound h1 hcall
  obtain ⟨hd, callBytes, extBytes, hlen, hb, hs, he⟩ := mark_partition h1
  unfold decodeExtensions at h2
  rw [hd] at h2
  obtain ⟨signed, spec, k1, k2, _, k3, k4⟩ := decodeExtensionsUnmarked_sound h2
  have e1 : between b m.callStart m.extensionsStart = callBytes := by
    unfold between
    rw [he, hs, hb, List.append_assoc, List.drop_left' rfl, show ∀ a b : Nat, a + b - a = b by omega,
      List.take_left' rfl]
  have e2 : b.bytes.drop m.extensionsStart = extBytes := by
    rw [he, hs, hb, List.drop_left' (by simp)]
  rw [e1] at g2
  rw [e2] at k3
  exact ⟨id, signed, spec, callBytes, extBytes, g1, k1, k2, hb, hlen, g2, k3, k4⟩

/-- C29. When both parts of a transaction are decoded, the payload is the compact length
of the call, the call, and the extensions; and nothing else. -/
theorem parseTransaction_sound {expected : Option Bytes} {r : TransactionParsed ME} {c : Call}
    (h : parseTransaction M b expected = .ok r) (hc : r.callResult = .ok c) :
    ∃ id signed spec, ∃ callBytes extBytes : Bytes, M.callTy = .ok id ∧ M.signedExtensions = .ok signed ∧
      M.specNameVersion = .ok spec ∧
      b.bytes = compactEncode callBytes.length ++ callBytes ++ extBytes ∧
      IsCall M.types id c callBytes ∧ ItemsAre M.types (extItems signed) r.extensions extBytes ∧
      Accepted r.extensions spec.printedSpecVersion expected := by
  obtain ⟨id, signed, spec, callBytes, extBytes, h1, h2, h3, h4, _, h5⟩ := parseTransaction_sound_length h hc
  exact ⟨id, signed, spec, callBytes, extBytes, h1, h2, h3, h4, h5⟩

/-- C29. The call and the extensions are reported independently: the transaction is
parsed if the extensions are, and then carries the outcome for the call. -/
theorem parseTransaction_iff {expected : Option Bytes} {r : TransactionParsed ME} :
    parseTransaction M b expected = .ok r ↔
      ∃ m, mark (ME := ME) b = .ok m ∧ decodeExtensions M m expected = .ok r.extensions ∧
        ((∃ c, decodeAsCall M m = .ok c ∧ r.callResult = .ok c) ∨
         (∃ e, decodeAsCall M m = .error (.err e) ∧ r.callResult = .error e)) := by
  unfold parseTransaction
  constructor
  · intro h
    obtain ⟨m, h1, h⟩ := ebind_ok.1 h
    obtain ⟨exts, h2, h⟩ := ebind_ok.1 h
    refine ⟨m, h1, ?_⟩
    split at h
    · rename_i c hc; cases h; exact ⟨h2, .inl ⟨c, hc, rfl⟩⟩
    · rename_i e hc; cases h; exact ⟨h2, .inr ⟨e, hc, rfl⟩⟩
    · cases h
    · cases h
  · rintro ⟨m, h1, h2, ⟨c, h3, h4⟩ | ⟨e, h3, h4⟩⟩
    · rw [h1, eok_bind, h2, eok_bind, h3]
      obtain ⟨cr, ex⟩ := r
      simp only at h4; subst h4; rfl
    · rw [h1, eok_bind, h2, eok_bind, h3]
      obtain ⟨cr, ex⟩ := r
      simp only at h4; subst h4; rfl

/-- C29. Parsing a transaction never panics. -/
theorem parseTransaction_calm (hM : CalmMetadata M) (b : Buf) (expected : Option Bytes) :
    Calm (parseTransaction M b expected) := by
  unfold parseTransaction
  refine .bind ?_ fun m hm => .bind (decodeExtensionsUnmarked_calm hM _ _) fun exts _ => ?_
  · rcases mark_cases (ME := ME) b with ⟨m, h⟩ | h
    · rw [h]; exact .ok _
    · rw [h]; exact .err _
  · rcases decodeAsCall_calm hM hm with ⟨c, h⟩ | ⟨e, h⟩
    · rw [h]; exact .ok _
    · rw [h]; exact .ok _

/-- C29, for transactions without length prefix: the payload is the call and the
extensions. -/
theorem parseTransactionUnmarked_sound {expected : Option Bytes} {r : TransactionUnmarkedParsed}
    (h : parseTransactionUnmarked M b expected = .ok r) :
    ∃ id signed spec, ∃ callBytes extBytes : Bytes, M.callTy = .ok id ∧ M.signedExtensions = .ok signed ∧
      M.specNameVersion = .ok spec ∧ b.bytes = callBytes ++ extBytes ∧
      IsCall M.types id r.call callBytes ∧ ItemsAre M.types (extItems signed) r.extensions extBytes ∧
      Accepted r.extensions spec.printedSpecVersion expected := by
  unfold parseTransactionUnmarked at h
  obtain ⟨⟨c, pos⟩, h1, h⟩ := ebind_ok.1 h
  obtain ⟨exts, h2, h⟩ := ebind_ok.1 h
  cases h
  obtain ⟨id, g1, g2, g3, g4⟩ := decodeAsCallUnmarked_sound h1
  obtain ⟨signed, spec, k1, k2, _, k3, k4⟩ := decodeExtensionsUnmarked_sound h2
  refine ⟨id, signed, spec, between b 0 pos, b.bytes.drop pos, g1, k1, k2, ?_, g2, k3, k4⟩
  unfold between; simp

/-- C29. Every transaction made of an encoded call and encoded acceptable extensions is
parsed, into the same call and the same extension values. -/
theorem parseTransaction_complete (hk : EmptyArraysGrounded M.types) (hr : Reliable b)
    {expected : Option Bytes} {id : Nat} {signed : List SignedExt} {spec : SpecNameVersion} {c : Call}
    {callBytes : Bytes} {vs : Parts} (h1 : M.callTy = .ok id) (h2 : M.signedExtensions = .ok signed)
    (h3 : M.specNameVersion = .ok spec) (hl : callBytes.length < 2 ^ 32)
    (hb : b.bytes = compactEncode callBytes.length ++ callBytes ++ vs.bytes)
    (hc : IsCall M.types id c callBytes) (hvl : vs.length = (extItems signed).length)
    (he : ∀ x ∈ (extItems signed).zip vs, Enc M.types false x.1.2 x.2.1 x.2.2) :
    ∃ exts : List ED, exts.map edValue = vs.values ∧ ItemsAre M.types (extItems signed) exts vs.bytes ∧
      (Accepted exts spec.printedSpecVersion expected → ∃ c', parseTransaction M b expected = .ok ⟨.ok c', exts⟩ ∧
        c'.palletName = c.palletName ∧ c'.variantName = c.variantName ∧
        fdsValue c'.fields = fdsValue c.fields) := by
  have hm := mark_complete (ME := ME) hr hl hb
  have hbe : between b (compactEncode callBytes.length).length
      ((compactEncode callBytes.length).length + callBytes.length) = callBytes := by
    unfold between
    rw [hb, List.append_assoc, List.drop_left' rfl, show ∀ a b : Nat, a + b - a = b by omega,
      List.take_left' rfl]
  obtain ⟨c', g1, g2⟩ := decodeAsCall_complete (M := M) hk hr hm h1 (by rw [hbe]; exact hc)
  obtain ⟨exts, k1, k2, _, k3⟩ := decodeExtensionsUnmarked_complete (M := M) hk hr (b := b)
    (pos := (compactEncode callBytes.length).length + callBytes.length) (expected := expected) h2 h3 hvl he
    (by rw [hb, List.drop_left' (by simp)]) (by unfold Buf.len; rw [hb]; simp)
  refine ⟨exts, k1, k2, fun ha => ⟨c', ?_, g2⟩⟩
  unfold parseTransaction decodeExtensions
  rw [hm, eok_bind]
  dsimp only
  rw [k3 ha, eok_bind, g1]

example : parseTransaction Example.chain Example.payload (some Example.genesis) = .ok
    ⟨.ok Example.call,
     [⟨.tuple [], []⟩, ⟨.tuple [], []⟩,
     ⟨.composite [⟨none, none, "", ⟨.era .immortal, [⟨"", ["sp_runtime", "generic", "era", "Era"]⟩]⟩⟩],
       [⟨"", ["frame_system", "CheckMortality"]⟩]⟩,
     ⟨.uint .u32 9 .specVersion, []⟩,
     ⟨.genesisHash Example.genesis, [⟨"", ["primitive_types", "H256"]⟩]⟩,
     ⟨.blockHash Example.genesis, [⟨"", ["primitive_types", "H256"]⟩]⟩]⟩ := rfl

example : ∃ exts, parseTransactionUnmarked Example.chain (Buf.ofBytes (Example.callBytes ++ Example.extBytes)) none =
    .ok ⟨Example.call, exts⟩ := ⟨_, rfl⟩

example : CalmMetadata Example.chain := ⟨.ok _, .ok _, .ok _⟩

end Verif
