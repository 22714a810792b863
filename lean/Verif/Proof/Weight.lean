import Verif.Spec.Weight
import Verif.Proof.Shown
/-! Size of parsed data against the bytes consumed. -/
namespace Verif
open Spec

variable {R : Registry} {Q : Rel} {sz : Nat → Nat} {K : Nat}

/-! ### Bytes pay -/

/-- What the bytes pay for. -/
def income (K : Nat) (bs : Bytes) : Nat := 2 * K * bs.length

/-- What is kept back for the wrapping of an element. -/
def saved (K : Nat) (bs : Bytes) : Nat := if bs = [] then 0 else K

theorem income_append (K : Nat) (x y : Bytes) : income K (x ++ y) = income K x + income K y := by
  simp [income, Nat.mul_add]

theorem income_cons (K : Nat) (i : UInt8) (y : Bytes) : income K (i :: y) = 2 * K + income K y := by
  simp [income, Nat.mul_add]; omega

theorem saved_append (K : Nat) (x y : Bytes) : saved K (x ++ y) ≤ saved K x + saved K y := by
  unfold saved
  cases x <;> simp

theorem saved_le (K : Nat) (x : Bytes) : saved K x ≤ K := by
  unfold saved; split <;> omega

theorem saved_nil (K : Nat) : saved K [] = 0 := rfl

theorem income_nil (K : Nat) : income K [] = 0 := rfl

theorem saved_cons (K : Nat) (i : UInt8) (x : Bytes) : saved K (i :: x) = K := rfl

theorem saved_pos (K : Nat) {x : Bytes} (h : x ≠ []) : saved K x = K := if_neg h

/-- A leaf with content. -/
theorem income_leaf {x : Bytes} (hk : 1 ≤ K) (hx : x ≠ []) : x.length + saved K x ≤ income K x := by
  have hl : 1 ≤ x.length := List.length_pos_iff.2 hx
  rw [saved_pos K hx]
  unfold income
  have h1 : K * 1 ≤ K * x.length := Nat.mul_le_mul_left _ hl
  have h2 : 1 * x.length ≤ K * x.length := Nat.mul_le_mul_right _ hk
  rw [Nat.mul_assoc]
  omega

theorem income_ge {x : Bytes} : saved K x ≤ income K x := by
  unfold saved income
  split
  · omega
  · rename_i h
    have hl : 1 ≤ x.length := List.length_pos_iff.2 h
    have h1 : K * 1 ≤ K * x.length := Nat.mul_le_mul_left _ hl
    rw [Nat.mul_assoc]
    omega

/-! ### Sizes -/

theorem infosSize_append (a b : List Info) : infosSize (a ++ b) = infosSize a + infosSize b := by
  simp [infosSize]

theorem ownInfo_size (t : Typ) : infosSize (ownInfo t) ≤ typeText t := by
  unfold ownInfo typeText infosSize
  split
  · simp
  · simp

/-- The recursive calls yield data of limited size. -/
structure LightRel (R : Registry) (sz : Nat → Nat) (K : Nat) (Q : Rel) : Prop where
  symbol : ∀ {id p d bs}, Q (.symbol id) p d bs →
    edSize d + saved K bs ≤ infosSize p.info + sz id + income K bs
  resolved : ∀ {ty id p d bs}, R.resolve id = .ok ty → Q (.resolved ty id) p d bs →
    edSize d + saved K bs ≤ infosSize p.info + sz id + income K bs

theorem forField_info {c : Checker} {f : Field} {p : Propagated} (h : Propagated.forField c f = .ok p) : p.info = [] := by
  unfold Propagated.forField at h
  obtain ⟨c', _, h⟩ := bind_ok.1 h
  cases h; rfl

theorem forTy_info {c : Checker} {t : Typ} {id : Nat} {p : Propagated} (h : Propagated.forTy c t id = .ok p) : p.info = [] := by
  unfold Propagated.forTy at h
  obtain ⟨c', _, h⟩ := bind_ok.1 h
  cases h; rfl

theorem FieldsRel.light (hQ : LightRel R sz K Q) {c : Checker} {fs : List Field} {ds : List FD} {bs : Bytes}
    (h : FieldsRel Q c fs ds bs) : fdsSize ds + saved K bs ≤ fieldsSize sz fs + income K bs := by
  induction h with
  | nil => simp [fdsSize, saved_nil]
  | @cons f fs p d ds x y hp hq _ ih =>
    have h1 := hQ.symbol hq
    rw [forField_info hp] at h1
    have h2 := saved_append K x y
    rw [income_append]
    simp only [mkFD, fdsSize, fieldsSize, List.map_cons, List.sum_cons, fieldText, infosSize, List.map_nil,
      List.sum_nil, collectDocs, lines] at *
    omega

theorem TupleRel.light (hQ : LightRel R sz K Q) {c : Checker} {ids : List Nat} {ds : List ED} {bs : Bytes}
    (h : TupleRel R Q c ids ds bs) : edsSize ds + saved K bs ≤ (ids.map sz).sum + income K bs := by
  induction h with
  | nil => simp [edsSize, saved_nil]
  | @cons id ids ty p d ds x y ht hp hq _ ih =>
    have h1 := hQ.resolved (get_ok.1 ht) hq
    rw [forTy_info hp] at h1
    have h2 := saved_append K x y
    rw [income_append]
    simp only [edsSize, List.map_cons, List.sum_cons, infosSize, List.map_nil, List.sum_nil] at *
    omega

theorem pd_ed (d : ED) : pdSize d.data ≤ edSize d := by
  cases d; simp only [edSize]; omega

theorem ElemsRel.light (hQ : LightRel R sz K Q) {h : HuskedType} {s : Nat} (hr : R.resolve h.id = .ok h.ty)
    (hs : sz h.id ≤ s) {l : List PD} {bs : Bytes} (he : ElemsRel Q h l bs) :
    pdsSize l + saved K bs ≤ l.length * s + income K bs := by
  induction he with
  | nil => simp [pdsSize, saved_nil]
  | @cons d ds x y hq _ ih =>
    have h1 := hQ.resolved hr hq
    have h2 := saved_append K x y
    have h3 := pd_ed d
    rw [income_append, List.length_cons, Nat.add_mul]
    simp only [pdsSize, Propagated.withChecker, infosSize, List.map_nil, List.sum_nil] at *
    omega

/-- Elements that take bytes pay for themselves. -/
theorem ElemsRel.light_solid (hQ : LightRel R sz K Q) {h : HuskedType} (hr : R.resolve h.id = .ok h.ty)
    (hs : sz h.id ≤ K)
    (hne : ∀ {d x}, Q (.resolved h.ty h.id) (Propagated.withChecker h.checker) d x → x ≠ [])
    {l : List PD} {bs : Bytes} (he : ElemsRel Q h l bs) : pdsSize l ≤ income K bs := by
  induction he with
  | nil => simp [pdsSize]
  | @cons d ds x y hq _ ih =>
    have h1 := hQ.resolved hr hq
    have h3 := pd_ed d
    rw [saved_pos K (hne hq)] at h1
    rw [income_append]
    simp only [pdsSize, Propagated.withChecker, infosSize, List.map_nil, List.sum_nil] at *
    omega

/-! ### Packed lists -/

theorem uints_size (w : UW) (l : List Nat) : pdsSize (l.map fun v => PD.uint w v .none) = l.length := by
  induction l with
  | nil => rfl
  | cons v l ih => simp only [List.map_cons, pdsSize, pdSize, ih, List.length_cons]; omega

theorem bytes_size {info : List Info} : ∀ {ds : List PD} {l : List (List Nat)}, ds.length = l.length →
    (∀ x ∈ ds.zip l, x.1 = .sequence info (.uints .u8 x.2) ∨ ∃ i, x.1 = .sequenceRaw i [] ∧ x.2 = []) →
    (l.map fun x => 1 + x.length).sum ≤ pdsSize ds ∧
      ((∃ a, ds.head? = some (.sequence info (.uints .u8 a))) →
        infosSize info + (l.map fun x => 1 + x.length).sum ≤ pdsSize ds)
  | [], [], _, _ => ⟨by simp [pdsSize], by rintro ⟨a, h⟩; cases h⟩
  | d :: ds, x :: l, hl, h => by
    have ih := (bytes_size (info := info) (ds := ds) (l := l) (by simpa using hl)
      (fun y hy => h y (by simp [hy]))).1
    have h0 := h (d, x) (by simp)
    constructor
    · rcases h0 with h0 | ⟨i, h0, h1⟩
      · simp only at h0
        subst h0
        simp only [List.map_cons, List.sum_cons, pdsSize, pdSize, sequenceSize]
        omega
      · simp only at h0 h1
        subst h0 h1
        simp only [List.map_cons, List.sum_cons, pdsSize, pdSize, List.length_nil]
        omega
    · rintro ⟨a, ha⟩
      simp only [List.head?_cons, Option.some.injEq] at ha
      subst ha
      rcases h0 with h0 | ⟨i, h0, h1⟩
      · simp only [PD.sequence.injEq, Sequence.uints.injEq, true_and] at h0
        subst h0
        simp only [List.map_cons, List.sum_cons, pdsSize, pdSize, sequenceSize]
        omega
      · simp at h0

theorem seqData_size (h : HuskedType) (l : List PD) : pdSize (seqData h l) ≤ 1 + infosSize h.info + pdsSize l := by
  unfold seqData
  cases hw : wrapSequence l with
  | none => simp only [pdSize]; omega
  | some s =>
    simp only [pdSize]
    cases collected_iff.1 hw with
    | uints _ => rw [uints_size]; simp only [sequenceSize]; omega
    | bytes h1 h2 h3 =>
      have := (bytes_size h2 h3).2 h1
      simp only [sequenceSize]; omega

theorem peel_size (B : Budget R sz K) {h h' : Hint} {is is' : List Info} {id core : Nat}
    (hp : Peel R h is id h' is' core) : infosSize is' ≤ infosSize is + sz id ∧ sz core ≤ sz id := by
  induction hp with
  | @stop h is id t hr _ =>
    have := B.own hr
    have := ownInfo_size t
    rw [infosSize_append]
    omega
  | @struct h h' is is' id core t f hr _ hd _ ih =>
    have h1 := B.struct hr hd
    have := ownInfo_size t
    rw [infosSize_append] at ih
    simp only [fieldsSize, List.map_cons, List.map_nil, List.sum_cons, List.sum_nil] at h1
    omega
  | @compact h h' is is' id inner core t hr _ hd _ ih =>
    have h1 := B.compact hr hd
    have := ownInfo_size t
    rw [infosSize_append] at ih
    omega

/-! ### Types -/

theorem compact_append_ne (n : Nat) (x : Bytes) : compactEncode n ++ x ≠ [] := by
  intro e
  have := compactEncode_length_pos n
  rw [(List.append_eq_nil_iff.1 e).1] at this
  simp at this

theorem leBytes_ne {k v : Nat} (h : 0 < k) : leBytes k v ≠ [] := by
  intro e
  have := congrArg List.length e
  rw [leBytes_length] at this
  simp at this; omega

theorem PrimRel.light {s : SpecialtySet} {p : Prim} {d : PD} {bs : Bytes} (hk : 1 ≤ K) (h : PrimRel s p d bs) :
    pdSize d + saved K bs ≤ 1 + income K bs := by
  have hi := income_ge (K := K) (x := bs)
  cases h with
  | str t hc hl =>
    have h1 := income_leaf (K := K) (x := strEncode t) hk (compact_append_ne _ _)
    have h2 : (utf8 t).length ≤ (strEncode t).length := by unfold strEncode; simp
    simp only [pdSize, textSize]
    omega
  | _ => simp only [pdSize]; omega

theorem bitsEnc_size {s : BitStore} {o : BitOrder} {l : List Bool} {bs : Bytes} (h : BitsEnc s o l bs) :
    (l.length + 7) / 8 ≤ bs.length ∧ bs ≠ [] := by
  obtain ⟨els, _, hc, _, _, rfl⟩ := h
  have hp := compactEncode_length_pos l.length
  have hlen : ∀ els : List Nat, (els.flatMap (leBytes s.bytes)).length = els.length * s.bytes := by
    intro els
    induction els with
    | nil => simp
    | cons e els ih => rw [List.flatMap_cons, List.length_append, ih, leBytes_length, List.length_cons, Nat.add_mul]; omega
  constructor
  · rw [List.length_append, hlen]
    have h1 : l.length ≤ els.length * (8 * s.bytes) := hc.1
    have : els.length * (8 * s.bytes) = 8 * (els.length * s.bytes) := by
      rw [← Nat.mul_assoc, Nat.mul_comm els.length 8, Nat.mul_assoc]
    omega
  · exact compact_append_ne _ _

variable (B : Budget R sz K) (hv : SolidVectors R)
include B hv

theorem DefRel.light (hQ : LightRel R sz K Q) (hS : SoundRel R Q) {ty : Typ} {id : Nat} {p : Propagated}
    {d : ED} {bs : Bytes} (hr : R.resolve id = .ok ty) (h : DefRel R Q ty id p d bs) :
    edSize d + typeText ty + saved K bs ≤ infosSize p.info + sz id + income K bs := by
  have hown := B.own hr
  have hwithin := B.within hr
  cases h with
  | composite hd hf =>
    have h1 := B.struct hr hd
    have h2 := hf.rel.light hQ
    simp only [edSize, pdSize]
    omega
  | emptyEnum hd hc =>
    simp only [edSize, pdSize, saved_nil, income_nil]; omega
  | @enum vs i v ds bs hd hc hvar hsp hf =>
    have h1 := B.enum hr hd (find_mem hvar)
    have h2 := hf.rel.light hQ
    rw [saved_cons, income_cons]
    simp only [edSize, pdSize, collectDocs, lines] at *
    omega
  | @sequence elem h l bs hd hc hh hl he =>
    obtain ⟨g1, k, g2⟩ := huskType_core hh
    obtain ⟨g3, g4⟩ := peel_size B (huskType_peel hh)
    obtain ⟨te, hte⟩ := g2.resolve
    have hK := B.within hte
    have h1 := ElemsRel.light_solid hQ g1 (by omega) (fun {d x} hq e => by
      subst e
      exact hv _ _ _ hr hd _ (g2.enc (hS.resolved g1 hq))) he
    have h2 := seqData_size h l
    have hne := compact_append_ne l.length bs
    have h3 : 2 * K ≤ income K (compactEncode l.length) := by
      unfold income
      have := Nat.mul_le_mul_left (2 * K) (compactEncode_length_pos l.length)
      omega
    rw [saved_pos K hne, income_append]
    have g3 : infosSize h.info ≤ sz elem := by simpa [infosSize] using g3
    simp only [edSize]
    omega
  | @array elem h l bs hd hc hh he =>
    obtain ⟨g1, k, g2⟩ := huskType_core hh
    obtain ⟨g3, g4⟩ := peel_size B (huskType_peel hh)
    have h0 := B.array hr hd
    have h1 := ElemsRel.light hQ g1 g4 he
    have h2 := seqData_size h l
    have g3 : infosSize h.info ≤ sz elem := by simpa [infosSize] using g3
    rw [Nat.add_mul] at h0
    simp only [edSize]
    omega
  | tuple hd hc ht =>
    have h1 := B.tuple hr hd
    have h2 := ht.light hQ
    simp only [edSize, pdSize]
    omega
  | primitive hd hp =>
    have h1 := hp.light (K := K) (by omega)
    simp only [edSize]
    omega
  | compact hd hc hck hq =>
    have h1 := B.compact hr hd
    have h2 := hQ.symbol hq
    simp only at h2
    omega
  | @bits order store k l _ hd hc hk he =>
    obtain ⟨h1, h2⟩ := bitsEnc_size he
    have h3 := income_leaf (K := K) (by omega) h2
    simp only [edSize, pdSize]
    omega

theorem TyRel.light (hQ : LightRel R sz K Q) (hS : SoundRel R Q) {ty : Typ} {id : Nat} {p : Propagated}
    {d : ED} {bs : Bytes} (hr : R.resolve id = .ok ty) (h : TyRel R Q ty id p d bs) :
    edSize d + typeText ty + saved K bs ≤ infosSize p.info + sz id + income K bs := by
  have hown := B.own hr
  have hwithin := B.within hr
  have hk : 1 ≤ K := by omega
  have hg := income_ge (K := K) (x := bs)
  cases h with
  | ofDef ho h => exact h.light B hv hQ hS hr
  | @fixed k bs hh hc hl =>
    have := income_leaf (K := K) (x := bs) hk (by rintro rfl; cases k <;> cases hl)
    simp only [edSize, pdSize]; omega
  | era hh hc he => simp only [edSize, pdSize]; omega
  | @h256 bs hh hc hl =>
    have := income_leaf (K := K) (x := bs) hk (by rintro rfl; cases hl)
    have hp : ∀ s (b : Bytes), pdSize (h256Data s b) = 1 + b.length := by intro s b; cases s <;> rfl
    simp only [edSize, hp]; omega
  | per hh hc hv' => simp only [edSize, pdSize]; omega
  | perCompact hh hc hv' => simp only [edSize, pdSize]; omega
  | @signature vs i k bs hd hc hh he hl =>
    have := income_leaf (K := K) (x := bs) hk (by rintro rfl; cases k <;> cases hl)
    rw [saved_cons, income_cons]
    simp only [edSize, pdSize]; omega
  | @pallet vs vs' i j item pn pi v ds bs hd hc hh he hvar hf =>
    obtain ⟨w, f, t', g1, g2, g3, g4, g5, g6, g7, g8⟩ := enumSpecial_pallet_info he
    have h1 := B.enum hr hd g2
    have h2 := B.enum g5 g7 (find_mem hvar)
    have h3 := hf.rel.light hQ
    have h4 := B.own g5
    rw [g4] at h1
    rw [saved_cons, income_cons, income_cons, g8]
    simp only [fieldsSize, List.map_cons, List.map_nil, List.sum_cons, List.sum_nil, typeText] at h1 h4
    simp only [edSize, pdSize, collectDocs, lines, ← g3] at *
    simp only [fieldsSize] at h2 h3
    simp only [typeText, lines] at *
    omega

theorem runN_light (n : Nat) : LightRel R sz K (RunN R n) := by
  induction n with
  | zero => exact ⟨fun h => h.elim, fun _ h => h.elim⟩
  | succ n ih =>
    have key : ∀ (p : Propagated) (t : Typ), infosSize (p.addInfo (Info.fromTy t)).info ≤ infosSize p.info + typeText t := by
      intro p t
      rw [addInfo_info, infosSize_append]
      have := ownInfo_size t
      omega
    constructor
    · rintro id p d bs ⟨ty, id', h1, h2⟩
      obtain ⟨t, ht, h1⟩ := bind_ok.1 h1
      cases h1
      have := h2.light B hv ih (runN_sound n) (get_ok.1 ht)
      have := key p ty
      omega
    · rintro ty id p d bs hr ⟨ty', id', h1, h2⟩
      cases h1
      have := h2.light B hv ih (runN_sound n) hr
      have := key p ty
      omega

theorem run_light : LightRel R sz K (Run R) :=
  ⟨fun ⟨n, h⟩ => (runN_light B hv n).symbol h, fun hr ⟨n, h⟩ => (runN_light B hv n).resolved hr h⟩

end Verif
