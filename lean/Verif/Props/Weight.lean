import Verif.Proof.Weight
import Verif.Proof.Out
import Verif.Model.Cards
import Verif.Props.Decode
/-!
# C65 The size of the outcome is linear in the size of the input

As long as elements of vectors take at least one byte (`SolidVectors`) and no type contains itself
without an enum or a vector in between (`Ranked`), the outcome takes memory at most proportional to the
bytes consumed; how much a byte may cost depends on the registry only. Without the first assumption
there is no bound at all (`decode_unbounded_output`).
-/
namespace Verif
open Spec

variable {R : Registry} {ME : Type}

/-! ### Every registry without cycles has a budget -/

theorem sum_map_le {α : Type} {f g : α → Nat} : ∀ {l : List α}, (∀ a ∈ l, f a ≤ g a) → (l.map f).sum ≤ (l.map g).sum
  | [], _ => Nat.le_refl _
  | a :: l, h => by
    have h1 := h a (by simp)
    have h2 := sum_map_le (l := l) fun b hb => h b (by simp [hb])
    simp only [List.map_cons, List.sum_cons]
    omega

theorem fieldsSize_le {f g : Nat → Nat} {fs : List Field} (h : ∀ x ∈ fs, f x.ty ≤ g x.ty) :
    fieldsSize f fs ≤ fieldsSize g fs :=
  sum_map_le fun x hx => Nat.add_le_add_left (h x hx) _

theorem sizeUpTo_succ (n : Nat) : ∀ id, sizeUpTo R n id ≤ sizeUpTo R (n + 1) id := by
  induction n with
  | zero => intro id; exact Nat.zero_le _
  | succ n ih =>
    intro id
    rw [sizeUpTo, sizeUpTo]
    split
    · exact Nat.le_refl _
    · refine Nat.add_le_add_left ?_ _
      split
      · exact fieldsSize_le fun x _ => ih x.ty
      · exact sum_map_le fun i _ => ih i
      · exact Nat.mul_le_mul_left _ (ih _)
      · exact ih _
      · exact Nat.le_refl _

theorem sizeUpTo_mono {n m : Nat} (h : n ≤ m) (id : Nat) : sizeUpTo R n id ≤ sizeUpTo R m id := by
  induction h with
  | refl => exact Nat.le_refl _
  | step _ ih => exact Nat.le_trans ih (sizeUpTo_succ _ id)

theorem le_largest {α : Type} {f : α → Nat} {a : α} : ∀ {l : List α}, a ∈ l → f a ≤ largest (l.map f)
  | [], h => by cases h
  | b :: l, h => by
    simp only [List.map_cons, largest, List.foldr_cons]
    rcases List.mem_cons.1 h with rfl | h
    · omega
    · have := le_largest (f := f) h
      simp only [largest] at this
      omega

/-- A registry without cycles has a budget: the size of the largest type or variant. -/
theorem ranked_budget {rk : Nat → Nat} (hr : Ranked R rk) : Budget R (typeSize R rk) (largestSize R rk) := by
  have hK : ∀ id, id < R.size → max (typeSize R rk id) (variantSize R (typeSize R rk) id) ≤ largestSize R rk :=
    fun id h => le_largest (f := fun id => max (typeSize R rk id) (variantSize R (typeSize R rk) id)) (List.mem_range.2 h)
  have hlt : ∀ {id t}, R.resolve id = .ok t → id < R.size := by
    intro id t h
    rcases Nat.lt_or_ge id R.size with h1 | h1
    · exact h1
    · obtain ⟨e, he⟩ := R.bounded id h1
      rw [he] at h; cases h
  unfold typeSize at hK ⊢
  refine ⟨?_, ?_, ?_, ?_, ?_, ?_, ?_⟩
  · intro id t h
    have := hK id (hlt h)
    omega
  · intro id t h
    simp only [sizeUpTo, h]
    omega
  · intro id t fields h hd
    have h1 := (hr id t h).1 fields hd
    have h2 : fieldsSize (fun i => sizeUpTo R (rk i + 1) i) fields ≤ fieldsSize (sizeUpTo R (rk id)) fields :=
      fieldsSize_le fun x hx => sizeUpTo_mono (h1 x hx) x.ty
    simp only [sizeUpTo, h, hd]
    simp only [sizeUpTo] at h2
    omega
  · intro id t ids h hd
    have h1 := (hr id t h).2.1 ids hd
    have h2 : (ids.map fun i => sizeUpTo R (rk i + 1) i).sum ≤ (ids.map (sizeUpTo R (rk id))).sum :=
      sum_map_le fun x hx => sizeUpTo_mono (h1 x hx) x
    simp only [sizeUpTo, h, hd]
    simp only [sizeUpTo] at h2
    omega
  · intro id t n elem h hd
    have h1 := (hr id t h).2.2.1 n elem hd
    have h2 := Nat.mul_le_mul_left (n + 1) (sizeUpTo_mono (R := R) h1 elem)
    simp only [sizeUpTo, h, hd]
    simp only [sizeUpTo] at h2
    omega
  · intro id t inner h hd
    have h1 := (hr id t h).2.2.2 inner hd
    have h2 := sizeUpTo_mono (R := R) h1 inner
    simp only [sizeUpTo, h, hd]
    simp only [sizeUpTo] at h2
    omega
  · intro id t vs v h hd hv
    have h1 := hK id (hlt h)
    have h2 := le_largest (f := fun v : Variant =>
      1 + textSize v.name + textSize (lines v.docs) + fieldsSize (fun i => sizeUpTo R (rk i + 1) i) v.fields) hv
    obtain ⟨path, docs, params, d⟩ := t
    cases hd
    simp only [variantSize, h] at h1
    omega

/-! ### Values -/

theorem Has.length_le {data bs : Bytes} {pos : Nat} (h : Has data pos bs) : bs.length ≤ data.length := by
  rcases h with rfl | h
  · exact Nat.zero_le _
  · obtain ⟨pre, post, rfl, _⟩ := h
    simp only [List.length_append]
    omega

/-- C65. With a budget: the size of what is shown is within the budget of the type plus `2 * K` for every
byte consumed. -/
theorem decode_size {sz : Nat → Nat} {K : Nat} (B : Budget R sz K) (hv : SolidVectors R) {b : Buf} {id pos q : Nat}
    {p : Propagated} {d : ED} (h : decode R b (.symbol id) pos p = .ok (d, q)) :
    edSize d ≤ infosSize p.info + sz id + 2 * K * (q - pos) := by
  obtain ⟨bs, _, h2, h3⟩ := (decode_parses R b (.symbol id) p).sound h
  have := (run_light B hv).symbol h3
  rw [h2, Nat.add_sub_cancel_left]
  unfold income at this
  omega

theorem cost {sz : Nat → Nat} {K : Nat} (B : Budget R sz K) (hv : SolidVectors R) {b : Buf} {id pos q : Nat}
    {p : Propagated} {d : ED} (hd : decode R b (.symbol id) pos p = .ok (d, q)) :
    pos ≤ q ∧ q - pos ≤ b.len ∧ 1 ≤ K ∧ edSize d ≤ infosSize p.info + K * (1 + 2 * (q - pos)) := by
  have h1 := decode_size B hv hd
  obtain ⟨bs, h3, h4, n, h5⟩ := (decode_parses R b (.symbol id) p).sound hd
  have h6 : sz id ≤ K ∧ 1 ≤ K := by
    cases n with
    | zero => exact h5.elim
    | succ n =>
      obtain ⟨ty, id', h7, _⟩ := h5
      obtain ⟨t, ht, h7⟩ := bind_ok.1 h7
      cases h7
      have := B.within (get_ok.1 ht)
      have := B.own (get_ok.1 ht)
      omega
  have h7 : b.bytes.length = b.len := rfl
  have h8 := h3.length_le
  refine ⟨by omega, by omega, h6.2, ?_⟩
  have h9 : K * (1 + 2 * (q - pos)) = K + 2 * K * (q - pos) := by
    rw [Nat.mul_add, Nat.mul_one, Nat.mul_left_comm, Nat.mul_assoc]
  omega

/-- C65. Decoding a value: the size of the outcome is at most proportional to the bytes consumed. -/
theorem value_size_linear {sz : Nat → Nat} {K : Nat} (B : Budget R sz K) (hv : SolidVectors R) {b : Buf} {id pos q : Nat}
    {d : ED} (hd : decodeAsTypeAtPosition R b id pos = .ok (d, q)) : edSize d ≤ K * (1 + 2 * (q - pos)) := by
  obtain ⟨_, _, _, h2⟩ := cost B hv hd
  have h3 : infosSize (Propagated.new).info = 0 := rfl
  omega

/-- C65. The same, with the size of the largest type or variant as the factor. -/
theorem value_size_largest {rk : Nat → Nat} (hr : Ranked R rk) (hv : SolidVectors R) {b : Buf} {id pos q : Nat}
    {d : ED} (hd : decodeAsTypeAtPosition R b id pos = .ok (d, q)) :
    edSize d ≤ largestSize R rk * (1 + 2 * (q - pos)) :=
  value_size_linear (ranked_budget hr) hv hd

/-- C65. Decoding a whole input as a value. -/
theorem whole_value_size_linear {sz : Nat → Nat} {K : Nat} (B : Budget R sz K) (hv : SolidVectors R) {b : Buf} {id : Nat}
    {d : ED} (hd : decodeAllAsType R b id = .ok d) : edSize d ≤ K * (1 + 2 * b.len) := by
  unfold decodeAllAsType at hd
  obtain ⟨⟨d', q⟩, h1, h2⟩ := bind_ok.1 hd
  dsimp only at h2
  split at h2
  · cases h2
  · rename_i hq
    cases h2
    have := value_size_linear B hv h1
    have hq : q = b.len := by omega
    rw [hq] at this
    simpa using this

/-! ### Transactions, extrinsics, storage -/

theorem edsSize_append (a b : List ED) : edsSize (a ++ b) = edsSize a + edsSize b := by
  induction a with
  | nil => simp [edsSize]
  | cons d l ih => simp only [List.cons_append, edsSize, ih]; omega

theorem asCall_size {d : ED} {c : Call} (h : d.data.asCall = some c) : callSize c ≤ edSize d := by
  obtain ⟨d, is⟩ := d
  cases d with
  | pallet item i docs p v fs =>
    cases item with
    | call => cases h; simp only [callSize, edSize, pdSize]; omega
    | event => cases h
  | _ => cases h

theorem extensionsLoop_size {K : Nat} {data : Buf} {sel : SignedExt → Nat}
    {sz : Nat → Nat} (B : Budget R sz K) (hv : SolidVectors R) :
    ∀ {es : List SignedExt} {pos q : Nat} {l : List ED},
      (extensionsLoop R data sel es pos : SRes ME (List ED × Nat)) = .ok (l, q) →
      edsSize l ≤ K * (1 + 2 * data.len) * es.length
  | [], _, _, _, h => by cases h; exact Nat.zero_le _
  | e :: es, pos, q, l, h => by
    unfold extensionsLoop at h
    obtain ⟨⟨d, q1⟩, h1, h⟩ := ebind_ok.1 h
    obtain ⟨⟨ds, q2⟩, h2, h⟩ := ebind_ok.1 h
    cases h
    have h3 := extensionsLoop_size B hv h2
    obtain ⟨g1, g2, _, g3⟩ := cost B hv (mapErr_ok.1 h1)
    have g4 : infosSize (Propagated.fromExtMeta e.identifier).info = 0 := rfl
    have g5 : K * (1 + 2 * (q1 - pos)) ≤ K * (1 + 2 * data.len) := Nat.mul_le_mul_left _ (by omega)
    simp only [edsSize, List.length_cons, Nat.mul_add, Nat.mul_one] at *
    omega

theorem decodeAsCallUnmarked_size {K : Nat} {M : Metadata ME} {data : Buf}
    {sz : Nat → Nat} (B : Budget M.types sz K) (hv : SolidVectors M.types)
    {pos q : Nat} {c : Call} (h : decodeAsCallUnmarked M data pos = .ok (c, q)) :
    callSize c ≤ K * (1 + 2 * data.len) := by
  unfold decodeAsCallUnmarked at h
  obtain ⟨ty, _, h⟩ := ebind_ok.1 h
  obtain ⟨⟨d, q'⟩, h1, h⟩ := ebind_ok.1 h
  dsimp only at h
  split at h
  · rename_i c' hc
    cases h
    have h2 := asCall_size hc
    obtain ⟨g1, g2, _, g3⟩ := cost B hv (mapErr_ok.1 h1)
    have g4 : infosSize Propagated.new.info = 0 := rfl
    have g5 : K * (1 + 2 * (q - pos)) ≤ K * (1 + 2 * data.len) := Nat.mul_le_mul_left _ (by omega)
    omega
  · cases h

theorem decodeExtensionsUnmarked_size {K : Nat} {M : Metadata ME} {data : Buf} {signed : List SignedExt}
    {sz : Nat → Nat} (B : Budget M.types sz K) (hv : SolidVectors M.types)
    (hs : M.signedExtensions = .ok signed) {pos : Nat} {expected : Option Bytes} {l : List ED}
    (h : decodeExtensionsUnmarked M data pos expected = .ok l) :
    edsSize l ≤ K * (1 + 2 * data.len) * (2 * signed.length) := by
  unfold decodeExtensionsUnmarked at h
  obtain ⟨s, h0, h⟩ := ebind_ok.1 h
  rw [mapOut_ok, hs] at h0
  cases h0
  obtain ⟨⟨l1, q1⟩, h1, h⟩ := ebind_ok.1 h
  obtain ⟨⟨l2, q2⟩, h2, h⟩ := ebind_ok.1 h
  dsimp only at h
  split at h
  · cases h
  · obtain ⟨spec, _, h⟩ := ebind_ok.1 h
    obtain ⟨_, _, h⟩ := ebind_ok.1 h
    cases h
    have g1 := extensionsLoop_size B hv h1
    have g2 := extensionsLoop_size B hv h2
    generalize K * (1 + 2 * data.len) = L at *
    rw [edsSize_append, Nat.two_mul, Nat.mul_add]
    omega

/-- C65. Parsing a signable transaction: call and extensions together are at most proportional to the
length of the transaction; the factor depends on the metadata only. -/
theorem transaction_size_linear {M : Metadata ME} {sz : Nat → Nat} {K : Nat} (B : Budget M.types sz K)
    (hv : SolidVectors M.types) {signed : List SignedExt} (hs : M.signedExtensions = .ok signed)
    {data : Buf} {expected : Option Bytes} {t : TransactionParsed ME} (ht : parseTransaction M data expected = .ok t) :
    txSize t ≤ K * (1 + 2 * data.len) * (2 * signed.length + 1) + 1 := by
  unfold parseTransaction at ht
  obtain ⟨m, hm, ht⟩ := ebind_ok.1 ht
  obtain ⟨l, hl, ht⟩ := ebind_ok.1 ht
  have hmd : m.data = data := by
    unfold mark at hm
    obtain ⟨⟨n, s⟩, _, hm⟩ := ebind_ok.1 hm
    obtain ⟨_, _, hm⟩ := ebind_ok.1 hm
    cases hm; rfl
  unfold decodeExtensions at hl
  have h1 := decodeExtensionsUnmarked_size B hv hs hl
  rw [hmd] at h1
  rw [Nat.mul_add, Nat.mul_one]
  split at ht
  · rename_i c hc
    cases ht
    unfold decodeAsCall at hc
    obtain ⟨b, hb, hc⟩ := ebind_ok.1 hc
    obtain ⟨⟨c', q⟩, h2, hc⟩ := ebind_ok.1 hc
    dsimp only at hc
    split at hc
    · cases hc
    · cases hc
      have h4 := decodeAsCallUnmarked_size B hv h2
      have h5 : b.len ≤ data.len := by
        unfold Marked.dataNoExtensions at hb
        split at hb
        · rename_i b' hb'
          cases hb
          rw [hmd] at hb'
          unfold Buf.limitLength at hb'
          split at hb'
          · cases hb'
          · cases hb'
            simp only [Buf.len, List.length_take]
            omega
        · cases hb
      have h6 : K * (1 + 2 * b.len) ≤ K * (1 + 2 * data.len) := Nat.mul_le_mul_left _ (by omega)
      simp only [txSize]
      omega
  · cases ht
    simp only [txSize]
    omega
  · cases ht
  · cases ht

/-- C65. Parsing a transaction without a length prefix. -/
theorem unmarked_size_linear {M : Metadata ME} {sz : Nat → Nat} {K : Nat} (B : Budget M.types sz K)
    (hv : SolidVectors M.types) {signed : List SignedExt} (hs : M.signedExtensions = .ok signed)
    {data : Buf} {expected : Option Bytes} {t : TransactionUnmarkedParsed}
    (ht : parseTransactionUnmarked M data expected = .ok t) :
    callSize t.call + edsSize t.extensions ≤ K * (1 + 2 * data.len) * (2 * signed.length + 1) := by
  unfold parseTransactionUnmarked at ht
  obtain ⟨⟨c, q⟩, hc, ht⟩ := ebind_ok.1 ht
  obtain ⟨l, hl, ht⟩ := ebind_ok.1 ht
  cases ht
  have h1 := decodeExtensionsUnmarked_size B hv hs hl
  have h2 := decodeAsCallUnmarked_size B hv hc
  rw [Nat.mul_add, Nat.mul_one]
  dsimp only
  omega

theorem extrinsicCall_size {K : Nat} {input : Buf}
    {sz : Nat → Nat} (B : Budget R sz K) (hv : SolidVectors R)
    {id pos : Nat} {c : Call} (h : (extrinsicCall R input id pos : Except (Out (UErr ME)) Call) = .ok c) :
    callSize c ≤ K * (1 + 2 * input.len) := by
  unfold extrinsicCall extrinsicPart at h
  obtain ⟨⟨d, q⟩, h1, h⟩ := ebind_ok.1 h
  dsimp only at h
  split at h
  · rename_i c' hc
    cases h
    have h2 := asCall_size hc
    obtain ⟨g1, g2, _, g3⟩ := cost B hv (mapErr_ok.1 h1)
    have g4 : infosSize Propagated.new.info = 0 := rfl
    have g5 : K * (1 + 2 * (q - pos)) ≤ K * (1 + 2 * input.len) := Nat.mul_le_mul_left _ (by omega)
    omega
  · cases h

theorem extrinsicPart_size {K : Nat} {input : Buf}
    {sz : Nat → Nat} (B : Budget R sz K) (hv : SolidVectors R)
    {id pos q : Nat} {d : ED} (h : (extrinsicPart R input id pos : Except (Out (UErr ME)) _) = .ok (d, q)) :
    edSize d ≤ K * (1 + 2 * input.len) := by
  unfold extrinsicPart at h
  obtain ⟨g1, g2, _, g3⟩ := cost B hv (mapErr_ok.1 h)
  have g4 : infosSize Propagated.new.info = 0 := rfl
  have g5 : K * (1 + 2 * (q - pos)) ≤ K * (1 + 2 * input.len) := Nat.mul_le_mul_left _ (by omega)
  omega

/-- C65. Decoding an unchecked extrinsic. -/
theorem extrinsic_size_linear {M : CompleteMetadata ME} {sz : Nat → Nat} {K : Nat} (B : Budget M.types sz K)
    (hv : SolidVectors M.types) {input : Buf} {x : UncheckedExtrinsic} (hx : decodeUncheckedExtrinsic M input = .ok x) :
    extrinsicSize x ≤ K * (1 + 2 * input.len) * 4 := by
  unfold decodeUncheckedExtrinsic at hx
  obtain ⟨params, _, hx⟩ := ebind_ok.1 hx
  obtain ⟨⟨len, start⟩, _, hx⟩ := ebind_ok.1 hx
  dsimp only at hx
  split at hx
  · cases hx
  split at hx
  · cases hx
  obtain ⟨vb, _, hx⟩ := ebind_ok.1 hx
  obtain ⟨v, _, hx⟩ := ebind_ok.1 hx
  unfold extrinsicContent at hx
  split at hx
  · cases hx
  split at hx
  · obtain ⟨c, hc, hx⟩ := ebind_ok.1 hx
    cases hx
    have := extrinsicCall_size B hv hc
    simp only [extrinsicSize]
    omega
  · obtain ⟨⟨a, q1⟩, h1, hx⟩ := ebind_ok.1 hx
    obtain ⟨⟨s, q2⟩, h2, hx⟩ := ebind_ok.1 hx
    obtain ⟨⟨e, q3⟩, h3, hx⟩ := ebind_ok.1 hx
    obtain ⟨c, hc, hx⟩ := ebind_ok.1 hx
    cases hx
    have g1 := extrinsicPart_size B hv h1
    have g2 := extrinsicPart_size B hv h2
    have g3 := extrinsicPart_size B hv h3
    have g4 := extrinsicCall_size B hv hc
    simp only [extrinsicSize]
    omega

theorem cutHash_size {kind : HashKind} {ty : Nat} {key : Buf} {pos q : Nat} {x : KeyPart}
    (h : cutHash kind ty key pos = .ok (x, q)) : keyPartSize x ≤ 33 := by
  unfold cutHash at h
  obtain ⟨s, h1, h⟩ := ebind_ok.1 h
  split at h
  · cases h
  · rename_i hl
    cases h
    have : kind.len ≤ 32 := by cases kind <;> decide
    simp only [keyPartSize]
    omega

theorem processHasher_size {K : Nat} {key : Buf} {H : HashFns}
    {sz : Nat → Nat} (B : Budget R sz K) (hv : SolidVectors R)
    {hs : Hasher} {ty pos q : Nat} {x : KeyPart} (h : processHasher H R hs ty key pos = .ok (x, q)) :
    keyPartSize x ≤ K * (1 + 2 * key.len) + 33 := by
  have hash : ∀ {n f} {x : KeyPart} {q : Nat}, checkHash R n f ty key pos = .ok (x, q) → keyPartSize x ≤ K * (1 + 2 * key.len) := by
    intro n f x q h
    unfold checkHash at h
    obtain ⟨s, h1, h⟩ := ebind_ok.1 h
    split at h
    · cases h
    · obtain ⟨⟨d, q1⟩, h2, h⟩ := ebind_ok.1 h
      dsimp only at h
      split at h
      · cases h
      · split at h
        · cases h
        · cases h
          obtain ⟨g1, g2, _, g3⟩ := cost B hv (mapErr_ok.1 h2)
          have g4 : infosSize Propagated.new.info = 0 := rfl
          have g5 : K * (1 + 2 * (q - (pos + n))) ≤ K * (1 + 2 * key.len) := Nat.mul_le_mul_left _ (by omega)
          simp only [keyPartSize]
          omega
  cases hs with
  | blake2_128 | blake2_256 | twox128 | twox256 => have := cutHash_size h; omega
  | blake2_128Concat | twox64Concat => have := hash h; omega
  | identity =>
    unfold processHasher at h
    obtain ⟨⟨d, q1⟩, h2, h⟩ := ebind_ok.1 h
    cases h
    obtain ⟨g1, g2, _, g3⟩ := cost B hv (mapErr_ok.1 h2)
    have g4 : infosSize Propagated.new.info = 0 := rfl
    have g5 : K * (1 + 2 * (q - pos)) ≤ K * (1 + 2 * key.len) := Nat.mul_le_mul_left _ (by omega)
    simp only [keyPartSize]
    omega

theorem hashersLoop_size {K : Nat} {key : Buf} {H : HashFns}
    {sz : Nat → Nat} (B : Budget R sz K) (hv : SolidVectors R) :
    ∀ {hs : List Hasher} {tys : List Nat} {pos q : Nat} {l : List KeyPart},
      hashersLoop H R key hs tys pos = .ok (l, q) →
      (l.map keyPartSize).sum ≤ (K * (1 + 2 * key.len) + 33) * hs.length
  | [], _, _, _, _, h => by cases h; exact Nat.zero_le _
  | _ :: _, [], _, _, _, h => by cases h; exact Nat.zero_le _
  | a :: hs, ty :: tys, pos, q, l, h => by
    unfold hashersLoop at h
    obtain ⟨⟨d, q1⟩, h1, h⟩ := ebind_ok.1 h
    obtain ⟨⟨ds, q2⟩, h2, h⟩ := ebind_ok.1 h
    cases h
    have h3 := hashersLoop_size B hv h2
    have h4 := processHasher_size B hv h1
    simp only [List.map_cons, List.sum_cons, List.length_cons, Nat.mul_add, Nat.mul_one] at *
    omega

/-- C65. Decoding a storage entry: proportional to the lengths of key and value. -/
theorem storage_size_linear {sz : Nat → Nat} {K : Nat} (B : Budget R sz K) (hv : SolidVectors R) {H : HashFns}
    {entry : Entry} {key value : Buf} {s : Storage} (hs : decodeStorageEntry H R key value entry = .ok s) :
    storageSize s ≤ textSize (lines entry.docs) + 1 + K + K * (1 + 2 * value.len)
      + (K * (1 + 2 * key.len) + 33) * keyParts entry.ty := by
  obtain ⟨ty, docs⟩ := entry
  unfold decodeStorageEntry at hs
  have hdocs : collectDocs docs = lines docs := rfl
  dsimp only at hs
  split at hs
  · cases hs
  cases ty with
  | plain vt =>
    dsimp only at hs
    split at hs
    · cases hs
    obtain ⟨d, h1, hs⟩ := ebind_ok.1 hs
    cases hs
    have h2 := whole_value_size_linear B hv (mapErr_ok.1 h1)
    simp only [storageSize, keySize, keyParts, hdocs]
    omega
  | map hashers keyTy vt =>
    dsimp only at hs
    obtain ⟨kd, h1, hs⟩ := ebind_ok.1 hs
    obtain ⟨d, h2, hs⟩ := ebind_ok.1 hs
    cases hs
    have h3 := whole_value_size_linear B hv (mapErr_ok.1 h2)
    have h6 : keySize kd ≤ 1 + K + (K * (1 + 2 * key.len) + 33) * hashers.length := by
      unfold processKeyMapped at h1
      split at h1
      · obtain ⟨⟨c, q'⟩, h9, h1⟩ := ebind_ok.1 h1
        dsimp only at h1
        rw [eok_bind] at h1
        dsimp only at h1
        split at h1
        · cases h1
          have g1 := processHasher_size B hv h9
          simp only [keySize, List.length_cons, List.length_nil]
          omega
        · cases h1
      · obtain ⟨t, h9, h1⟩ := ebind_ok.1 h1
        dsimp only at h1
        have ht := get_ok.1 (mapErr_ok.1 h9)
        have hI := B.own ht
        have hI' := B.within ht
        split at h1
        · split at h1
          · cases h1
          · obtain ⟨⟨c, q'⟩, h10, h1⟩ := ebind_ok.1 h1
            dsimp only at h1
            rw [eok_bind] at h1
            dsimp only at h1
            split at h1
            · cases h1
              have g1 := hashersLoop_size B hv h10
              have g3 : infoSize (Info.fromTy t) = typeText t := rfl
              simp only [keySize]
              omega
            · cases h1
        · cases h1
    simp only [storageSize, keyParts, hdocs]
    omega

/-! ### Lines shown -/

section
variable (P : Printers) (specs : ShortSpecs) (specName : String)

theorem sequenceCards_count (is : List Info) (s : Sequence) (fl : List InfoFlat) (n : Nat) :
    (sequenceCards is s fl n).length + 1 ≤ 3 * (1 + sequenceSize s) := by
  cases s with
  | uints w l =>
    cases w <;> simp [sequenceCards, sequenceSize] <;> omega
  | vecU8 l i =>
    have h : l.length ≤ (l.map fun x => 1 + x.length).sum := by
      induction l with
      | nil => simp
      | cons x l ih => simp; omega
    simp [sequenceCards, sequenceSize]
    omega

mutual
theorem pd_cards (d : PD) (fl : List InfoFlat) (n : Nat) (b : Bool) :
    (d.card P specs specName fl n b).length + 1 ≤ 3 * pdSize d := by
  match d with
  | .bitVec s o l => simp [PD.card, pdSize]; omega
  | .blockHash h => simp [PD.card, pdSize]; omega
  | .genesisHash h => simp [PD.card, pdSize]; omega
  | .h256 h => simp [PD.card, pdSize]; omega
  | .fixed k h => simp [PD.card, pdSize]; omega
  | .pallet item i docs p v fs =>
    have h1 := fds_cards fs 0 (n + 2) (isBalanceDisplay p)
    have h2 := first_cards fs [] (n + 2) (isBalanceDisplay p)
    simp only [PD.card, pdSize, List.length_cons]
    split <;> omega
  | .composite fs =>
    have h1 := fds_cards fs 0 (n + 1) b
    have h2 := first_cards fs fl n b
    simp only [PD.card, pdSize]
    split
    · simp; omega
    split
    · omega
    · simp only [List.length_cons]; omega
  | .emptyEnum => simp [PD.card, pdSize]
  | .era e => simp [PD.card, pdSize]
  | .perThing k v => simp [PD.card, pdSize]
  | .bool v => simp [PD.card, pdSize]
  | .char v => simp [PD.card, pdSize]
  | .int w v => simp [PD.card, pdSize]
  | .uint w v s => simp [PD.card, pdSize]
  | .u256 v => simp [PD.card, pdSize]
  | .sequence is s =>
    have := sequenceCards_count is s fl n
    simp only [PD.card, pdSize]
    omega
  | .sequenceRaw is l =>
    have := pds_cards l (n + 1) b
    simp only [PD.card, pdSize, List.length_cons]
    omega
  | .text s sp => cases sp <;> simp [PD.card, pdSize] <;> omega
  | .tuple l =>
    have := eds_cards l (n + 1) b
    simp only [PD.card, pdSize]
    split
    · simp; omega
    · simp only [List.length_cons]; omega
  | .variant name docs fs =>
    have h1 := fds_cards fs 0 (n + 2) b
    have h2 := first_cards fs [] (n + 2) b
    simp only [PD.card, pdSize, List.length_cons]
    split <;> omega

theorem ed_cards (d : ED) (n : Nat) (b : Bool) : (d.card P specs specName n b).length + 1 ≤ 3 * edSize d := by
  match d with
  | ⟨d, is⟩ =>
    have := pd_cards d (is.map Info.flatten) n b
    simp only [ED.card, edSize]
    omega

theorem first_cards (fs : List FD) (fl : List InfoFlat) (n : Nat) (b : Bool) :
    (cardFirstUnnamed P specs specName fs fl n b).length ≤ 3 * fdsSize fs := by
  match fs with
  | [] => simp [cardFirstUnnamed]
  | ⟨a, t, docs, ⟨d, is⟩⟩ :: l =>
    have := pd_cards d (fl ++ infoWithDocsOnly docs ++ is.map Info.flatten) n b
    simp only [cardFirstUnnamed, FD.cardUnnamed, fdsSize, edSize]
    omega

theorem fds_cards (fs : List FD) (i n : Nat) (b : Bool) :
    (cardFieldSet P specs specName fs i n b).length ≤ 3 * fdsSize fs := by
  match fs with
  | [] => simp [cardFieldSet]
  | ⟨a, t, docs, d⟩ :: l =>
    have h1 := ed_cards d (n + 1) b
    have h2 := fds_cards l (i + 1) n b
    simp only [cardFieldSet, FD.cardInSet, fdsSize, List.length_append, List.length_cons]
    omega

theorem pds_cards (l : List PD) (n : Nat) (b : Bool) : (cardElements P specs specName l n b).length ≤ 3 * pdsSize l := by
  match l with
  | [] => simp [cardElements]
  | d :: l =>
    have h1 := pd_cards d [] n b
    have h2 := pds_cards l n b
    simp only [cardElements, pdsSize, List.length_append]
    omega

theorem eds_cards (l : List ED) (n : Nat) (b : Bool) : (cardTuple P specs specName l n b).length ≤ 3 * edsSize l := by
  match l with
  | [] => simp [cardTuple]
  | d :: l =>
    have h1 := ed_cards d n b
    have h2 := eds_cards l n b
    simp only [cardTuple, edsSize, List.length_append]
    omega
end

theorem extensions_cards (l : List ED) : (cardExtensions P specs specName l).length ≤ 3 * edsSize l := by
  unfold cardExtensions
  induction l with
  | nil => simp
  | cons d l ih =>
    have := ed_cards P specs specName d 0 true
    simp only [List.flatMap_cons, List.length_append, edsSize]
    omega

/-- C65. The number of cards of a parsed value is at most proportional to the bytes consumed. -/
theorem value_cards_linear {sz : Nat → Nat} {K : Nat} (B : Budget R sz K) (hv : SolidVectors R) {b : Buf} {id pos q : Nat}
    {d : ED} (hd : decodeAsTypeAtPosition R b id pos = .ok (d, q)) (indent : Nat) (balance : Bool) :
    (d.card P specs specName indent balance).length ≤ 3 * (K * (1 + 2 * (q - pos))) := by
  have h1 := value_size_linear B hv hd
  have h2 := ed_cards P specs specName d indent balance
  omega

/-- C65. The number of cards of a parsed transaction is at most proportional to its length. -/
theorem transaction_cards_linear {M : Metadata ME} {sz : Nat → Nat} {K : Nat} (B : Budget M.types sz K)
    (hv : SolidVectors M.types) {signed : List SignedExt} (hs : M.signedExtensions = .ok signed)
    {data : Buf} {expected : Option Bytes} {t : TransactionParsed ME} (ht : parseTransaction M data expected = .ok t) :
    (match (t.card P specs specName).callResult with | .ok c => c.length | .error _ => 0)
      + (t.card P specs specName).extensions.length ≤ 3 * (K * (1 + 2 * data.len) * (2 * signed.length + 1)) + 3 := by
  have h1 := transaction_size_linear B hv hs ht
  have h2 := extensions_cards P specs specName t.extensions
  obtain ⟨r, es⟩ := t
  cases r with
  | error e =>
    simp only [TransactionParsed.card, Except.map, txSize] at *
    omega
  | ok c =>
    have h3 := pd_cards P specs specName c.toPD [] 0 false
    have h4 : pdSize c.toPD = callSize c := by simp only [Call.toPD, pdSize, callSize]
    simp only [TransactionParsed.card, Except.map, txSize, Call.card] at *
    omega
end

/-! ### The assumption on vectors is needed -/

namespace WeightExample

/-- Types `()` and `Vec<()>`. -/
theorem unit_budget : Budget unitReg (typeSize unitReg fun _ => 0) (largestSize unitReg fun _ => 0) :=
  ranked_budget (Example.ranked_of_check (ts := [{ typeDef := .tuple [] }, { typeDef := .sequence 0 }]) (by decide))

/-- A vector of empty tuples is larger than the bound. -/
theorem bound_fails : ∃ d, decodeAllAsType unitReg (Buf.ofBytes [0xa0]) 1 = .ok d ∧
    largestSize unitReg (fun _ => 0) * (1 + 2 * (Buf.ofBytes [0xa0]).len) < edSize d :=
  ⟨⟨.sequenceRaw [] (List.replicate 40 (.tuple [])), []⟩, by rfl, by decide +kernel⟩

/-- The types of the examples, with vectors of bytes only. -/
def solidTypes : List Typ := (Example.types.set 7 { typeDef := .sequence 0 }).set 10 { typeDef := .primitive .u8 }

theorem solid_ranked : Ranked (Registry.portable solidTypes) Example.rank := Example.ranked_of_check (by decide)

/-- Two structs `W(S { a: 7, b: 300, c: [1, 2] })` in an array. -/
def arrayBytes : Bytes := Example.sBytes ++ Example.sBytes

example : ∃ d, decodeAllAsType (Registry.portable solidTypes) (Buf.ofBytes arrayBytes) 13 = .ok d ∧ edSize d = 27 :=
  ⟨_, by rfl, by decide +kernel⟩

example : largestSize (Registry.portable solidTypes) Example.rank = 65 := by decide +kernel

end WeightExample

end Verif
