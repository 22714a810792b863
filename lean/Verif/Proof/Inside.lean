import Verif.Spec.Inside
import Verif.Proof.Growth
/-!
Success on `b` carries over to a memory `b'` that answers in the range consumed.
-/
namespace Verif
open Spec

/-- A success of `r` that ends before `hi` is a success of `r'`; positions go forward. -/
def Inside (pos hi : Nat) {α : Type} (r r' : Res (α × Nat)) : Prop :=
  ∀ a q, r = .ok (a, q) → pos ≤ q ∧ (q ≤ hi → r' = .ok (a, q))

variable {lo hi : Nat} {b b' : Buf}

theorem Inside.ok {α : Type} {pos : Nat} (a : α) (q : Nat) (h : pos ≤ q) : Inside pos hi (.ok (a, q)) (.ok (a, q)) := by
  intro a' q' h'; cases h'; exact ⟨h, fun _ => rfl⟩

theorem Inside.err {α : Type} {pos : Nat} (e : Fail) (r' : Res (α × Nat)) : Inside pos hi (.error e) r' := by
  intro a' q' h'; cases h'

theorem Inside.bind {α β : Type} {pos : Nat} {x x' : Res (α × Nat)} {f f' : α × Nat → Res (β × Nat)}
    (hx : Inside pos hi x x') (hf : ∀ a q, pos ≤ q → Inside q hi (f (a, q)) (f' (a, q))) :
    Inside pos hi (x >>= f) (x' >>= f') := by
  intro c q h
  obtain ⟨⟨a, q1⟩, h1, h2⟩ := bind_ok.1 h
  obtain ⟨g1, g2⟩ := hx a q1 h1
  obtain ⟨k1, k2⟩ := hf a q1 g1 c q h2
  refine ⟨Nat.le_trans g1 k1, fun hq => ?_⟩
  rw [g2 (Nat.le_trans k1 hq), ok_bind]
  exact k2 hq

/-- Computations that do not look at the data. -/
theorem Inside.bindL {α β : Type} {pos : Nat} (x : Res α) {f f' : α → Res (β × Nat)}
    (hf : ∀ a, Inside pos hi (f a) (f' a)) : Inside pos hi (x >>= f) (x >>= f') := by
  intro c q h
  obtain ⟨a, h1, h2⟩ := bind_ok.1 h
  rw [h1, ok_bind]
  exact hf a c q h2

theorem Spec.Answers.read (ha : Answers lo hi b b') {pos n : Nat} {s : Bytes} (h : b.readSlice pos n = .ok s)
    (hlo : lo ≤ pos) (hhi : pos + n ≤ hi) : b'.readSlice pos n = .ok s := by
  have hl : b'.len = b.len := by unfold Buf.len; rw [ha.data]
  unfold Buf.readSlice at h ⊢
  rw [ha.data, hl, ha.fault pos n hlo hhi]
  split at h
  · cases h
  · rename_i h1
    rw [if_neg h1]
    split at h
    · cases h
    · rename_i h2
      rw [if_neg h2]
      split at h
      · cases h
      · exact h

theorem Spec.Answers.readByte (ha : Answers lo hi b b') {pos : Nat} {i : UInt8} (h : b.readByte pos = .ok i)
    (hlo : lo ≤ pos) (hhi : pos + 1 ≤ hi) : b'.readByte pos = .ok i := by
  unfold Buf.readByte at h ⊢
  obtain ⟨s, h1, h2⟩ := bind_ok.1 h
  rw [ha.read h1 hlo hhi, ok_bind]
  exact h2

/-- A read, then something that ends behind what was read. -/
theorem Inside.read {α : Type} (ha : Answers lo hi b b') {pos n : Nat} (hlo : lo ≤ pos) {f f' : Bytes → Res (α × Nat)}
    (hf : ∀ s, Inside (pos + n) hi (f s) (f' s)) :
    Inside pos hi (b.readSlice pos n >>= f) (b'.readSlice pos n >>= f') := by
  intro c q h
  obtain ⟨s, h1, h2⟩ := bind_ok.1 h
  obtain ⟨k1, k2⟩ := hf s c q h2
  refine ⟨by omega, fun hq => ?_⟩
  rw [ha.read h1 hlo (by omega), ok_bind]
  exact k2 hq

variable {R : Registry}

theorem findCompactLoop_inside (ha : Answers lo hi b b') (dec : Bytes → Option Nat) {pos : Nat} (hlo : lo ≤ pos)
    (left i : Nat) {f : FoundCompact} (h : findCompactLoop dec b pos left i = .ok (some f)) :
    pos + i < f.startNextUnit ∧ (f.startNextUnit ≤ hi → findCompactLoop dec b' pos left i = .ok (some f)) := by
  induction left generalizing i with
  | zero => cases h
  | succ n ih =>
    unfold findCompactLoop at h ⊢
    split at h
    · cases h
    · rename_i hi'
      rw [if_neg hi']
      obtain ⟨s, h1, h2⟩ := bind_ok.1 h
      have hr := (readSlice_ok h1)
      have hlen : pos + (i + 1) ≤ b.len := by
        have := hr.1.le; rw [hr.2] at this; exact this
      have hl : b'.len = b.len := by unfold Buf.len; rw [ha.data]
      cases hd : dec s with
      | none =>
        rw [hd] at h2
        obtain ⟨k1, k2⟩ := ih (i + 1) h2
        refine ⟨by omega, fun hq => ?_⟩
        rw [ha.read h1 hlo (by omega), ok_bind]
        dsimp only
        rw [hd]
        exact k2 hq
      | some v =>
        rw [hd] at h2
        dsimp only at h2
        rw [if_neg (by omega)] at h2
        cases h2
        refine ⟨by dsimp only; omega, fun hq => ?_⟩
        dsimp only at hq
        rw [ha.read h1 hlo (by omega), ok_bind]
        dsimp only
        rw [hd]
        dsimp only
        rw [if_neg (by omega)]

theorem findCompact_inside (ha : Answers lo hi b b') (dec : Bytes → Option Nat) {pos : Nat} (hlo : lo ≤ pos)
    {f : FoundCompact} (h : findCompact dec b pos = .ok f) :
    pos ≤ f.startNextUnit ∧ (f.startNextUnit ≤ hi → findCompact dec b' pos = .ok f) := by
  have hl : b'.len = b.len := by unfold Buf.len; rw [ha.data]
  unfold findCompact at h ⊢
  rw [hl]
  split at h
  · cases h
  · rename_i h1
    rw [if_neg h1]
    obtain ⟨o, h2, h3⟩ := bind_ok.1 h
    cases o with
    | none => cases h3
    | some c =>
      cases h3
      obtain ⟨k1, k2⟩ := findCompactLoop_inside ha dec hlo _ _ h2
      refine ⟨by omega, fun hq => ?_⟩
      rw [k2 hq]; rfl

/-- A compact number, then something that ends behind it. -/
theorem Inside.compact {α : Type} (ha : Answers lo hi b b') {dec : Bytes → Option Nat} {pos : Nat} (hlo : lo ≤ pos)
    {f f' : FoundCompact → Res (α × Nat)} (hf : ∀ c, pos ≤ c.startNextUnit → Inside c.startNextUnit hi (f c) (f' c)) :
    Inside pos hi (findCompact dec b pos >>= f) (findCompact dec b' pos >>= f') := by
  intro a q h
  obtain ⟨c, h1, h2⟩ := bind_ok.1 h
  obtain ⟨g1, g2⟩ := findCompact_inside ha dec hlo h1
  obtain ⟨k1, k2⟩ := hf c g1 a q h2
  refine ⟨by omega, fun hq => ?_⟩
  rw [g2 (by omega), ok_bind]
  exact k2 hq

theorem getCompact_inside (ha : Answers lo hi b b') (dec : Bytes → Option Nat) {pos : Nat} (hlo : lo ≤ pos) :
    Inside pos hi (getCompact dec b pos) (getCompact dec b' pos) :=
  Inside.compact ha hlo fun _ _ => .ok _ _ (Nat.le_refl _)

theorem cutArray_inside (ha : Answers lo hi b b') (n : Nat) {pos : Nat} (hlo : lo ≤ pos) :
    Inside pos hi (cutArray n b pos) (cutArray n b' pos) := by
  refine Inside.read ha hlo fun s => ?_
  split
  · exact .err _ _
  · exact .ok _ _ (Nat.le_refl _)

theorem parseUInt_inside (ha : Answers lo hi b b') (w : UW) {pos : Nat} (hlo : lo ≤ pos) (s : SpecialtySet) :
    Inside pos hi (parseUInt w b pos s) (parseUInt w b' pos s) := by
  unfold parseUInt
  dsimp only
  split
  · exact Inside.bind (getCompact_inside ha _ hlo) fun _ _ _ => .ok _ _ (Nat.le_refl _)
  · exact Inside.bind (Inside.read ha hlo fun _ => .ok _ _ (Nat.le_refl _)) fun _ _ _ => .ok _ _ (Nat.le_refl _)

theorem parsePer_inside (ha : Answers lo hi b b') (k : PerKind) {pos : Nat} (hlo : lo ≤ pos) (c : Option Nat) :
    Inside pos hi (parsePer k b pos c) (parsePer k b' pos c) := by
  unfold parsePer
  dsimp only
  split
  · exact Inside.bind (getCompact_inside ha _ hlo) fun _ _ _ => .ok _ _ (Nat.le_refl _)
  · refine Inside.bind (Inside.read ha hlo fun s => ?_) fun _ _ _ => .ok _ _ (Nat.le_refl _)
    split
    · exact .ok _ _ (Nat.le_refl _)
    · exact .err _ _

theorem parseFixed_inside (ha : Answers lo hi b b') (k : FixedKind) {pos : Nat} (hlo : lo ≤ pos) (c : Option Nat) :
    Inside pos hi (parseFixed k b pos c) (parseFixed k b' pos c) :=
  Inside.bindL _ fun _ => Inside.bind (cutArray_inside ha _ hlo) fun _ _ _ => .ok _ _ (Nat.le_refl _)

theorem parseInt_inside (ha : Answers lo hi b b') (w : IW) {pos : Nat} (hlo : lo ≤ pos) (c : Option Nat) :
    Inside pos hi (parseInt w b pos c) (parseInt w b' pos c) :=
  Inside.bindL _ fun _ => Inside.bind (Inside.read ha hlo fun _ => .ok _ _ (Nat.le_refl _)) fun _ _ _ =>
    .ok _ _ (Nat.le_refl _)

theorem specialCaseH256_inside (ha : Answers lo hi b b') {pos : Nat} (hlo : lo ≤ pos) (s : SpecH256) :
    Inside pos hi (specialCaseH256 b pos s) (specialCaseH256 b' pos s) :=
  Inside.bind (cutArray_inside ha _ hlo) fun _ _ _ => by cases s <;> exact .ok _ _ (Nat.le_refl _)

theorem specialCaseEra_inside (ha : Answers lo hi b b') {pos : Nat} (hlo : lo ≤ pos) :
    Inside pos hi (specialCaseEra b pos) (specialCaseEra b' pos) := by
  unfold specialCaseEra
  refine Inside.read ha hlo fun s => ?_
  cases Era.decodeAll s with
  | some e => exact .ok _ _ (Nat.le_refl _)
  | none =>
    dsimp only
    intro c q h
    obtain ⟨s, h1, h2⟩ := bind_ok.1 h
    cases hd : Era.decodeAll s with
    | none => rw [hd] at h2; cases h2
    | some e =>
      rw [hd] at h2; cases h2
      refine ⟨by omega, fun hq => ?_⟩
      rw [ha.read h1 hlo hq, ok_bind]
      rw [hd]

theorem decodeStr_inside (ha : Answers lo hi b b') {pos : Nat} (hlo : lo ≤ pos) (h : Hint) :
    Inside pos hi (decodeStr b pos h) (decodeStr b' pos h) := by
  refine Inside.compact ha hlo fun f hf => ?_
  refine Inside.read ha (Nat.le_trans hlo hf) fun s => ?_
  cases stringFromUtf8 s with
  | none => exact .err _ _
  | some t => exact .ok _ _ (Nat.le_refl _)

theorem decodePrimitive_inside (ha : Answers lo hi b b') (p : Prim) {pos : Nat} (hlo : lo ≤ pos) (s : SpecialtySet) :
    Inside pos hi (decodePrimitive p b pos s) (decodePrimitive p b' pos s) := by
  unfold decodePrimitive
  cases p with
  | bool =>
    refine Inside.bindL _ fun _ => Inside.bind (Inside.read ha hlo fun s => ?_) fun _ _ _ => .ok _ _ (Nat.le_refl _)
    split
    · exact .ok _ _ (Nat.le_refl _)
    · split
      · exact .ok _ _ (Nat.le_refl _)
      · exact .err _ _
  | char =>
    refine Inside.bindL _ fun _ => Inside.bind (Inside.read ha hlo fun s => ?_) fun _ _ _ => .ok _ _ (Nat.le_refl _)
    split
    · exact .err _ _
    · cases charFromU32 (leNat s) with
      | none => exact .err _ _
      | some c => exact .ok _ _ (Nat.le_refl _)
  | u256 =>
    exact Inside.bindL _ fun _ => Inside.bind (Inside.read ha hlo fun _ => .ok _ _ (Nat.le_refl _)) fun _ _ _ =>
      .ok _ _ (Nat.le_refl _)
  | str => exact Inside.bindL _ fun _ => decodeStr_inside ha hlo _
  | u8 | u16 | u32 | u64 | u128 => exact parseUInt_inside ha _ hlo _
  | i8 | i16 | i32 | i64 | i128 | i256 => exact parseInt_inside ha _ hlo _

theorem intoBitvecDecode_inside (ha : Answers lo hi b b') (st : BitStore) {pos : Nat} (hlo : lo ≤ pos) :
    Inside pos hi (intoBitvecDecode st b pos) (intoBitvecDecode st b' pos) := by
  intro s q h
  unfold intoBitvecDecode BitVecPositions.new at h ⊢
  obtain ⟨p, h1, h2⟩ := bind_ok.1 h
  obtain ⟨f, h3, h4⟩ := bind_ok.1 h1
  cases h4
  obtain ⟨s', h5, h6⟩ := bind_ok.1 h2
  cases h6
  obtain ⟨g1, g2⟩ := findCompact_inside ha _ hlo h3
  dsimp only at h5 ⊢
  refine ⟨by omega, fun hq => ?_⟩
  rw [g2 (by omega), ok_bind, ok_bind]
  dsimp only
  rw [ha.read h5 hlo (by omega), ok_bind]

theorem decodeBitSequence_inside (ha : Answers lo hi b b') (o s id : Nat) {pos : Nat} (hlo : lo ≤ pos) :
    Inside pos hi (decodeBitSequence R o s id b pos) (decodeBitSequence R o s id b' pos) := by
  unfold decodeBitSequence
  refine Inside.bindL _ fun ord => Inside.bindL _ fun t => ?_
  split
  · split
    · rename_i st _
      refine Inside.bind (intoBitvecDecode_inside ha _ hlo) fun s q _ => ?_
      dsimp only
      cases bitVecDecodeAll st ord s with
      | none => exact .err _ _
      | some bits => exact .ok _ _ (Nat.le_refl _)
    · exact .err _ _
  · exact .err _ _

theorem withInfo_inside {pos : Nat} {info : List Info} {r r' : Res (PD × Nat)} (h : Inside pos hi r r') :
    Inside pos hi (withInfo info r) (withInfo info r') := Inside.bind h fun _ _ _ => .ok _ _ (Nat.le_refl _)

/-! ### The recursion -/

/-- Recursive calls are so related. -/
def RecInside (lo hi : Nat) (rec rec' : Dec) : Prop :=
  ∀ tyIn pos p, lo ≤ pos → Inside pos hi (rec tyIn pos p) (rec' tyIn pos p)

variable {rec rec' : Dec}

theorem decodeFieldsLoop_inside (h : RecInside lo hi rec rec') (c : Checker) (fs : List Field) {pos : Nat} (hlo : lo ≤ pos) :
    Inside pos hi (decodeFieldsLoop rec c fs pos) (decodeFieldsLoop rec' c fs pos) := by
  induction fs generalizing pos with
  | nil => exact .ok _ _ (Nat.le_refl _)
  | cons f fs ih =>
    exact Inside.bindL _ fun p => Inside.bind (h _ _ _ hlo) fun r q hq =>
      Inside.bind (ih (Nat.le_trans hlo hq)) fun _ _ _ => .ok _ _ (Nat.le_refl _)

theorem decodeFields_inside (h : RecInside lo hi rec rec') (c : Checker) (fs : List Field) {pos : Nat} (hlo : lo ≤ pos) :
    Inside pos hi (decodeFields rec fs pos c) (decodeFields rec' fs pos c) := by
  unfold decodeFields
  split
  · exact Inside.bindL _ fun _ => decodeFieldsLoop_inside h _ _ hlo
  · exact decodeFieldsLoop_inside h _ _ hlo

theorem decodeElementsLoop_inside (h : RecInside lo hi rec rec') (hu : HuskedType) (n : Nat) {pos : Nat} (hlo : lo ≤ pos) :
    Inside pos hi (decodeElementsLoop rec hu n pos) (decodeElementsLoop rec' hu n pos) := by
  induction n generalizing pos with
  | zero => exact .ok _ _ (Nat.le_refl _)
  | succ n ih =>
    exact Inside.bind (h _ _ _ hlo) fun r q hq =>
      Inside.bind (ih (Nat.le_trans hlo hq)) fun _ _ _ => .ok _ _ (Nat.le_refl _)

theorem decodeElementsSet_inside (h : RecInside lo hi rec rec') (elem n : Nat) {pos : Nat} (hlo : lo ≤ pos) (p : Propagated) :
    Inside pos hi (decodeElementsSet R rec elem n pos p) (decodeElementsSet R rec' elem n pos p) := by
  unfold decodeElementsSet
  refine Inside.bindL _ fun _ => Inside.bindL _ fun hu => ?_
  split
  · exact .ok _ _ (Nat.le_refl _)
  · refine Inside.bind (decodeElementsLoop_inside h _ _ hlo) fun out q _ => ?_
    dsimp only
    cases wrapSequence out with
    | some s => exact .ok _ _ (Nat.le_refl _)
    | none => exact .ok _ _ (Nat.le_refl _)

theorem decodeTupleLoop_inside (h : RecInside lo hi rec rec') (c : Checker) (ids : List Nat) {pos : Nat} (hlo : lo ≤ pos) :
    Inside pos hi (decodeTupleLoop R rec c ids pos) (decodeTupleLoop R rec' c ids pos) := by
  induction ids generalizing pos with
  | nil => exact .ok _ _ (Nat.le_refl _)
  | cons id ids ih =>
    exact Inside.bindL _ fun _ => Inside.bindL _ fun p => Inside.bind (h _ _ _ hlo) fun r q hq =>
      Inside.bind (ih (Nat.le_trans hlo hq)) fun _ _ _ => .ok _ _ (Nat.le_refl _)

/-- The variant and its fields, then something with them. -/
theorem decodeVariant_inside {α : Type} (ha : Answers lo hi b b') (h : RecInside lo hi rec rec') (vs : List Variant) {pos : Nat}
    (hlo : lo ≤ pos) (g : Variant → List FD → α) :
    Inside (pos + 1) hi (decodeVariant rec vs b pos >>= fun x => Except.ok (g x.1 x.2.1, x.2.2))
      (decodeVariant rec' vs b' pos >>= fun x => Except.ok (g x.1 x.2.1, x.2.2)) := by
  intro a q hq
  unfold decodeVariant pickVariant at hq ⊢
  obtain ⟨⟨v, fs, q1⟩, h1, h2⟩ := bind_ok.1 hq
  cases h2
  obtain ⟨v', h3, h4⟩ := bind_ok.1 h1
  obtain ⟨i, h5, h6⟩ := bind_ok.1 h3
  obtain ⟨⟨fs', q2⟩, h7, h8⟩ := bind_ok.1 h4
  cases h8
  obtain ⟨k1, k2⟩ := decodeFields_inside h Checker.new v.fields (pos := pos + 1) (by omega) _ _ h7
  refine ⟨k1, fun hq => ?_⟩
  have hq' : q1 ≤ hi := hq
  rw [ha.readByte h5 hlo (by omega), ok_bind, h6, ok_bind, k2 hq]
  rfl

theorem Inside.weaken {α : Type} {pos pos' : Nat} {r r' : Res (α × Nat)} (h : Inside pos hi r r') (hp : pos' ≤ pos) :
    Inside pos' hi r r' := fun a q hq => ⟨Nat.le_trans hp (h a q hq).1, (h a q hq).2⟩

theorem decodeTypeDef_inside (ha : Answers lo hi b b') (h : RecInside lo hi rec rec') (ty : Typ) (id : Nat) {pos : Nat}
    (hlo : lo ≤ pos) (p : Propagated) :
    Inside pos hi (decodeTypeDef R rec b ty id pos p) (decodeTypeDef R rec' b' ty id pos p) := by
  unfold decodeTypeDef
  split
  · exact Inside.bind (decodeFields_inside h _ _ hlo) fun _ _ _ => .ok _ _ (Nat.le_refl _)
  · refine Inside.bindL _ fun _ => ?_
    split
    · exact .ok _ _ (Nat.le_refl _)
    · exact (decodeVariant_inside ha h _ hlo
        fun v fs => ED.mk (.variant v.name (collectDocs v.docs) fs) p.info).weaken (by omega)
  · exact Inside.bind (getCompact_inside ha _ hlo) fun _ _ hq => decodeElementsSet_inside h _ _ (Nat.le_trans hlo hq) _
  · exact decodeElementsSet_inside h _ _ hlo _
  · unfold decodeTuple
    dsimp only
    split
    · exact Inside.bindL _ fun _ => Inside.bind (decodeTupleLoop_inside h _ _ hlo) fun _ _ _ => .ok _ _ (Nat.le_refl _)
    · exact Inside.bindL _ fun _ => Inside.bind (decodeTupleLoop_inside h _ _ hlo) fun _ _ _ => .ok _ _ (Nat.le_refl _)
  · exact withInfo_inside (decodePrimitive_inside ha _ hlo _)
  · exact Inside.bindL _ fun _ => Inside.bindL _ fun _ => h _ _ _ hlo
  · exact Inside.bindL _ fun _ => withInfo_inside (decodeBitSequence_inside ha _ _ _ hlo)

theorem decodeChecked_inside (ha : Answers lo hi b b') (h : RecInside lo hi rec rec') (sp : TypeChecked) (ty : Typ)
    (id : Nat) {pos : Nat} (hlo : lo ≤ pos) (p : Propagated) :
    Inside pos hi (decodeChecked R rec b sp ty id pos p) (decodeChecked R rec' b' sp ty id pos p) := by
  unfold decodeChecked
  split
  · exact decodeTypeDef_inside ha h _ _ hlo _
  · exact withInfo_inside (parseFixed_inside ha _ hlo _)
  · exact Inside.bindL _ fun _ => Inside.bind (specialCaseEra_inside ha hlo) fun _ _ _ => .ok _ _ (Nat.le_refl _)
  · exact Inside.bindL _ fun _ => withInfo_inside (specialCaseH256_inside ha hlo _)
  · rename_i n inf vs item
    exact Inside.bindL _ fun _ => (decodeVariant_inside ha h _ hlo
        fun v fs => ED.mk (.pallet item inf (collectDocs v.docs) n v.name fs) p.info).weaken (by omega)
  · exact withInfo_inside (parsePer_inside ha _ hlo _)

theorem decodeStep_inside (ha : Answers lo hi b b') (h : RecInside lo hi rec rec') :
    RecInside lo hi (decodeStep R b rec) (decodeStep R b' rec') := by
  intro tyIn pos p hlo
  unfold decodeStep
  refine Inside.bindL _ fun r => ?_
  obtain ⟨ty, id⟩ := r
  dsimp only
  generalize p.addInfo (Info.fromTy ty) = p
  by_cases ho : (TypeHinted.fromType ty).open = true
  · cases hd : ty.typeDef with
    | variant vs =>
      cases vs with
      | nil =>
        -- nothing to recognise
        have h1 : ∀ c : Buf, TypeChecked.fromType R ty c pos = .ok (.none, pos) := by
          intro c
          rcases (readByte_fine c pos).cases with ⟨i, hi⟩ | ⟨e, he⟩
          · rw [fromType_enum_ok ho hd hi]
            have : enumSpecial R (TypeHinted.fromType ty) [] i = .none := by
              apply Classical.byContradiction
              intro hc
              obtain ⟨v, hv⟩ := enumSpecial_find hc
              cases hv
            rw [this]; rfl
          · exact fromType_enum_err ho hd he
        rw [h1, h1, ok_bind, ok_bind]
        exact decodeChecked_inside ha h _ _ _ hlo _
      | cons v vs =>
        rcases (readByte_fine b pos).cases with ⟨i, hrd⟩ | ⟨e, he⟩
        · rw [fromType_enum_ok ho hd hrd, ok_bind]
          dsimp only
          -- the index byte is consumed
          have key : Inside (pos + 1) hi
              (decodeChecked R rec b (enumSpecial R (TypeHinted.fromType ty) (v :: vs) i) ty id
                (afterSpecial (enumSpecial R (TypeHinted.fromType ty) (v :: vs) i) pos) p)
              (decodeChecked R rec' b' (enumSpecial R (TypeHinted.fromType ty) (v :: vs) i) ty id
                (afterSpecial (enumSpecial R (TypeHinted.fromType ty) (v :: vs) i) pos) p) := by
            rcases enumSpecial_cases (R := R) (TypeHinted.fromType ty) (v :: vs) i with h0 | ⟨k, _, h0⟩ | ⟨it, n, inf, vs', _, h0⟩
            · rw [h0]
              simp only [afterSpecial, decodeChecked, decodeTypeDef, hd]
              exact Inside.bindL _ fun _ => decodeVariant_inside ha h _ hlo
                fun v fs => ED.mk (.variant v.name (collectDocs v.docs) fs) p.info
            · rw [h0]; exact decodeChecked_inside ha h _ _ _ (Nat.le_succ_of_le hlo) _
            · rw [h0]; exact decodeChecked_inside ha h _ _ _ (Nat.le_succ_of_le hlo) _
          intro d q hq
          obtain ⟨k1, k2⟩ := key d q hq
          refine ⟨by omega, fun hqh => ?_⟩
          rw [fromType_enum_ok ho hd (ha.readByte hrd hlo (by omega)), ok_bind]
          exact k2 hqh
        · rw [fromType_enum_err ho hd he, ok_bind]
          intro d q hq
          simp only [decodeChecked, decodeTypeDef, hd] at hq
          obtain ⟨_, _, hq⟩ := bind_ok.1 hq
          simp only [List.isEmpty_cons, Bool.false_eq_true, if_false, decodeVariant, pickVariant, he, error_bind] at hq
          cases hq
    | _ =>
      rw [fromType_nonEnum ho (by simp [hd]), fromType_nonEnum ho (by simp [hd]), ok_bind, ok_bind]
      exact decodeChecked_inside ha h _ _ _ hlo _
  · have hsame : TypeChecked.fromType R ty b' pos = TypeChecked.fromType R ty b pos ∧
        ∃ sp, TypeChecked.fromType R ty b pos = .ok (sp, pos) := by
      unfold TypeChecked.fromType
      cases hh : TypeHinted.fromType ty <;> first | exact ⟨rfl, _, rfl⟩ | (rw [hh] at ho; exact absurd rfl ho)
    obtain ⟨h1, sp, h2⟩ := hsame
    rw [h1, h2, ok_bind, ok_bind]
    exact decodeChecked_inside ha h _ _ _ hlo _

theorem decodeF_inside (ha : Answers lo hi b b') (n : Nat) : RecInside lo hi (decodeF R b n) (decodeF R b' n) := by
  induction n with
  | zero => intro _ _ _ _; exact .err _ _
  | succ n ih => exact decodeStep_inside ha ih

theorem decode_inside (ha : Answers lo hi b b') : RecInside lo hi (decode R b) (decode R b') := by
  intro tyIn pos p hlo
  unfold decode
  have : depthBound R b' pos = depthBound R b pos := by unfold depthBound Buf.len; rw [ha.data]
  rw [this]
  exact decodeF_inside ha _ _ _ _ hlo

end Verif
