import Verif.Spec.Base58
import Verif.Props.Legible
/-!
# C69: an address tells the key and the chain; C52 without assumptions on the printers
-/
namespace Verif
open Spec

/-! ### Base 58 -/

theorem be_foldl (bs : Bytes) (n : Nat) :
    bs.foldl (fun n b => n * 256 + b.toNat) n = n * 256 ^ bs.length + beNat bs := by
  induction bs generalizing n with
  | nil => simp [beNat]
  | cons b bs ih =>
    unfold beNat
    rw [List.foldl_cons, List.foldl_cons, ih, ih (0 * 256 + b.toNat), List.length_cons, Nat.pow_succ,
      Nat.add_mul, Nat.zero_mul, Nat.zero_add, Nat.mul_assoc, Nat.mul_comm 256]
    omega

theorem beNat_cons (b : UInt8) (bs : Bytes) : beNat (b :: bs) = b.toNat * 256 ^ bs.length + beNat bs := by
  have := be_foldl bs b.toNat
  unfold beNat at this ⊢
  rw [List.foldl_cons, Nat.zero_mul, Nat.zero_add]
  exact this

theorem beNat_bound (bs : Bytes) : beNat bs < 256 ^ bs.length := by
  induction bs with
  | nil => simp [beNat]
  | cons b bs ih =>
    rw [beNat_cons, List.length_cons, Nat.pow_succ]
    have hb := b.toNat_lt
    have : b.toNat * 256 ^ bs.length ≤ 255 * 256 ^ bs.length := Nat.mul_le_mul_right _ (by omega)
    omega

/-- Numbers of as many bytes. -/
theorem beNat_inj : ∀ {bs bs' : Bytes}, bs.length = bs'.length → beNat bs = beNat bs' → bs = bs'
  | [], [], _, _ => rfl
  | b :: bs, b' :: bs', hl, h => by
    simp only [List.length_cons, Nat.add_right_cancel_iff] at hl
    rw [beNat_cons, beNat_cons, hl] at h
    have h1 := beNat_bound bs
    have h2 := beNat_bound bs'
    rw [hl] at h1
    have hp : 0 < 256 ^ bs'.length := Nat.pow_pos (by decide)
    have hd : b.toNat = b'.toNat := by
      have e1 : (b.toNat * 256 ^ bs'.length + beNat bs) / 256 ^ bs'.length = b.toNat := by
        rw [Nat.mul_comm, Nat.mul_add_div hp, Nat.div_eq_of_lt h1]; rfl
      have e2 : (b'.toNat * 256 ^ bs'.length + beNat bs') / 256 ^ bs'.length = b'.toNat := by
        rw [Nat.mul_comm, Nat.mul_add_div hp, Nat.div_eq_of_lt h2]; rfl
      rw [← e1, ← e2, h]
    have hb : b = b' := UInt8.toNat_inj.1 hd
    subst hb
    rw [beNat_inj hl (by omega)]

/-- Zero bytes at the start do not count. -/
theorem beNat_zeros (n : Nat) (bs : Bytes) : beNat (List.replicate n 0 ++ bs) = beNat bs := by
  induction n with
  | zero => rfl
  | succ n ih => rw [List.replicate_succ, List.cons_append, beNat_cons, ih]; simp

/-- The bytes are zeros and a rest that does not start with one. -/
theorem zeros_split (bs : Bytes) :
    ∃ rest, bs = List.replicate (bs.takeWhile (· == 0)).length 0 ++ rest ∧ rest.head? ≠ some 0 := by
  induction bs with
  | nil => exact ⟨[], rfl, by simp⟩
  | cons b bs ih =>
    by_cases hb : b = 0
    · subst hb
      obtain ⟨rest, h1, h2⟩ := ih
      refine ⟨rest, ?_, h2⟩
      rw [List.takeWhile_cons_of_pos (by rfl), List.length_cons, List.replicate_succ, List.cons_append, ← h1]
    · refine ⟨b :: bs, ?_, by simpa using hb⟩
      rw [List.takeWhile_cons_of_neg (by simpa using hb)]; rfl

/-- A number without superfluous zero bytes tells how many bytes it has. -/
theorem beNat_length {bs : Bytes} (h : bs.head? ≠ some 0) {n : Nat} (hn : beNat bs < 256 ^ n) : bs.length ≤ n := by
  cases bs with
  | nil => simp
  | cons b bs =>
    rw [beNat_cons] at hn
    have hb : b.toNat ≠ 0 := by
      intro hz
      exact h (by rw [List.head?_cons, UInt8.toNat_inj.1 (hz.trans (by rfl : 0 = (0 : UInt8).toNat))])
    have h1 : 256 ^ bs.length ≤ b.toNat * 256 ^ bs.length := Nat.le_mul_of_pos_left _ (by omega)
    have h2 : 256 ^ bs.length < 256 ^ n := by omega
    have := (Nat.pow_lt_pow_iff_right (by decide : 1 < 256)).1 h2
    simp only [List.length_cons]
    omega

/-- The digit of a character. -/
def index58 (c : Char) : Nat := alphabet58.idxOf c

theorem index_char {d : Nat} (h : d < 58) : index58 (char58 d) = d := by
  have : ∀ d < 58, index58 (char58 d) = d := by decide
  exact this d h

/-- The number that a text in base 58 shows. -/
def value58 (l : List Char) : Nat := l.foldl (fun n c => n * 58 + index58 c) 0

theorem value_digits (n : Nat) : value58 ((digits58 n).map char58) = n := by
  induction n using Nat.strongRecOn with
  | _ n ih =>
    rw [digits58]
    split
    · rename_i h; rw [h]; rfl
    · rename_i h
      have := ih (n / 58) (by omega)
      unfold value58 at this ⊢
      rw [List.map_append, List.foldl_append, this, List.map_singleton, List.foldl_cons, List.foldl_nil,
        index_char (Nat.mod_lt _ (by decide))]
      omega

theorem digits58_lt {n d : Nat} (h : d ∈ digits58 n) : d < 58 := by
  induction n using Nat.strongRecOn with
  | _ n ih =>
    rw [digits58] at h
    split at h
    · simp at h
    · rename_i hn
      rcases List.mem_append.1 h with h | h
      · exact ih _ (by omega) h
      · rw [List.mem_singleton.1 h]; exact Nat.mod_lt _ (by decide)

theorem digits58_head (n : Nat) : (digits58 n).head? ≠ some 0 := by
  induction n using Nat.strongRecOn with
  | _ n ih =>
    rw [digits58]
    split
    · simp
    · rename_i hn
      have := ih (n / 58) (by omega)
      by_cases h : n / 58 = 0
      · rw [show digits58 (n / 58) = [] by rw [h, digits58]; rfl]
        simp; omega
      · rw [List.head?_append]
        cases hd : (digits58 (n / 58)).head? with
        | none =>
          rw [digits58, dif_neg h] at hd
          simp at hd
        | some x => rw [hd] at this; simpa using this

theorem value_ones (n : Nat) (l : List Char) : value58 (List.replicate n '1' ++ l) = value58 l := by
  induction n with
  | zero => rfl
  | succ n ih =>
    rw [List.replicate_succ, List.cons_append]
    exact ih

theorem ones_count (n m : Nat) :
    ((List.replicate n '1' ++ (digits58 m).map char58).takeWhile (· == '1')).length = n := by
  induction n with
  | zero =>
    rw [List.replicate_zero, List.nil_append]
    cases hd : digits58 m with
    | nil => rfl
    | cons d ds =>
      have h0 : d ≠ 0 := by
        intro h; have := digits58_head m; rw [hd, h] at this; exact this rfl
      have h1 : d < 58 := digits58_lt (n := m) (by rw [hd]; exact List.mem_cons_self)
      have h2 : char58 d ≠ '1' := by
        intro h
        have := index_char h1
        rw [h] at this
        exact h0 (this.symm.trans (by decide))
      rw [List.map_cons, List.takeWhile_cons_of_neg (by simpa using h2)]; rfl
  | succ n ih => rw [List.replicate_succ, List.cons_append, List.takeWhile_cons_of_pos (by rfl), List.length_cons, ih]

/-- **C69.** Different bytes have different texts in base 58. -/
theorem base58_injective {bs bs' : Bytes} (h : base58 bs = base58 bs') : bs = bs' := by
  unfold base58 at h
  rw [String.ofList_inj] at h
  have hv := congrArg value58 h
  rw [value_ones, value_ones, value_digits, value_digits] at hv
  have hz := congrArg (fun l : List Char => (l.takeWhile (· == '1')).length) h
  simp only [ones_count] at hz
  obtain ⟨r, h1, h2⟩ := zeros_split bs
  obtain ⟨r', h1', h2'⟩ := zeros_split bs'
  rw [hz] at h1
  rw [h1, h1', beNat_zeros, beNat_zeros] at hv
  have l1 : r.length ≤ r'.length := beNat_length h2 (hv ▸ beNat_bound r')
  have l2 : r'.length ≤ r.length := beNat_length h2' (hv ▸ beNat_bound r)
  have hr := beNat_inj (by omega) hv
  subst hr
  exact h1.trans h1'.symm

/-! ### Addresses -/

theorem ss58Prefix_unique {p p' : Nat} (hp : p < 16384) (hp' : p' < 16384) {x y : Bytes}
    (h : ss58Prefix p ++ x = ss58Prefix p' ++ y) : p = p' := by
  have key : ∀ n, n < 256 → (UInt8.ofNat n).toNat = n := fun n h => by
    rw [UInt8.toNat_ofNat']; exact Nat.mod_eq_of_lt h
  unfold ss58Prefix at h
  simp only [Nat.mod_eq_of_lt hp, Nat.mod_eq_of_lt hp'] at h
  split at h <;> split at h <;> simp only [List.cons_append, List.nil_append, List.cons.injEq] at h
  · have := congrArg UInt8.toNat h.1
    rw [key _ (by omega), key _ (by omega)] at this; exact this
  · have := congrArg UInt8.toNat h.1
    rw [key _ (by omega), key _ (by omega)] at this; omega
  · have := congrArg UInt8.toNat h.1
    rw [key _ (by omega), key _ (by omega)] at this; omega
  · have h1 := congrArg UInt8.toNat h.1
    have h2 := congrArg UInt8.toNat h.2.1
    rw [key _ (by omega), key _ (by omega)] at h1 h2
    have a1 : p / 256 < 64 := by omega
    have a2 : p' / 256 < 64 := by omega
    have a3 : p / 256 = p' / 256 := by omega
    have a4 : p % 4 = p' % 4 := by omega
    have a5 : p % 256 = p' % 256 := by omega
    omega

/-- **C69.** An address tells the key and the chain. -/
theorem ss58_injective (checksum : Bytes → UInt8 × UInt8) {key key' : Bytes} {p p' : Nat}
    (hp : p < 16384) (hp' : p' < 16384) (h : ss58 checksum key p = ss58 checksum key' p') :
    key = key' ∧ p = p' := by
  have e := base58_injective h
  have e2 := List.append_inj_left' e rfl
  have hpp := ss58Prefix_unique hp hp' e2
  subst hpp
  exact ⟨List.append_cancel_left e2, rfl⟩

/-- **C69.** Whatever the prefix in the specs of the chain, addresses with it tell the key. -/
theorem ss58_key (checksum : Bytes → UInt8 × UInt8) {key key' : Bytes} {p : Nat}
    (h : ss58 checksum key p = ss58 checksum key' p) : key = key' :=
  List.append_cancel_left (List.append_inj_left' (base58_injective h) rfl)

/-- Only 14 bits of the prefix are printed. -/
theorem ss58_prefix_mod (checksum : Bytes → UInt8 × UInt8) (key : Bytes) (p : Nat) :
    ss58 checksum key (p + 16384) = ss58 checksum key p := by
  unfold ss58 ss58Prefix
  rw [Nat.add_mod_right]

/-- **C69, C52.** Printers of addresses, and of bits in order, are faithful. -/
theorem ss58_faithful (checksum : Bytes → UInt8 × UInt8) (icon : Bytes → Bytes) {specs : ShortSpecs}
    {showBits : BitStore → BitOrder → List Bool → String} (hd : specs.decimals < 256) (hb : ShowsBits showBits) :
    Faithful (ss58Printers checksum icon) specs showBits where
  keys := fun _ _ _ _ _ h => ss58_key checksum h
  bits := by
    intro s o l l' h
    have e := (hb s o l).symm.trans ((congrArg (fun t : String => t.toList.filter fun c => c == '0' || c == '1') h).trans (hb s o l'))
    exact (List.map_inj_right (by intro x y; cases x <;> cases y <;> decide)).1 e
  decimals := hd

/-! ### C52 with addresses -/

variable {ME : Type} {M : Metadata ME} {R : Registry} {b b' : Buf} {specs : ShortSpecs}
  {specName : String} {showBits : BitStore → BitOrder → List Bool → String} {checksum : Bytes → UInt8 × UInt8}
  {icon : Bytes → Bytes}

/-- **C52.** What is shown determines the bytes, for data of one type; keys are shown as addresses. -/
theorem decodeAllAsType_signs_ss58 (hn : NamesDistinct R) (hs : SignaturesDistinct R) (hd : specs.decimals < 256)
    (hb : ShowsBits showBits) {id : Nat} {d d' : ED} (h : decodeAllAsType R b id = .ok d)
    (h' : decodeAllAsType R b' id = .ok d') (hf : Firm (edValue d)) {i i' : Nat} {units : Bool}
    (w : cardLines showBits (d.card (ss58Printers checksum icon) specs specName i units) =
      cardLines showBits (d'.card (ss58Printers checksum icon) specs specName i' units)) :
    b.bytes = b'.bytes :=
  decodeAllAsType_signs hn hs (ss58_faithful checksum icon hd hb) h h' hf w

/-- **C52.** What is shown determines what is signed; keys are shown as addresses. -/
theorem parseTransaction_signs_ss58 (hn : NamesDistinct M.types) (hs : SignaturesDistinct M.types)
    (hd : specs.decimals < 256) (hb : ShowsBits showBits) {expected expected' : Option Bytes}
    {r r' : TransactionParsed ME} {c c' : Call}
    (h : parseTransaction M b expected = .ok r) (h' : parseTransaction M b' expected' = .ok r')
    (hc : r.callResult = .ok c) (hc' : r'.callResult = .ok c')
    (hf : ∀ f ∈ fdsValue c.fields, Firm f.2) (hf' : ∀ d ∈ r.extensions, Firm (edValue d))
    (w : cardLines showBits (c.card (ss58Printers checksum icon) specs specName 0) =
      cardLines showBits (c'.card (ss58Printers checksum icon) specs specName 0))
    (w' : cardLines showBits (r.card (ss58Printers checksum icon) specs specName).extensions =
      cardLines showBits (r'.card (ss58Printers checksum icon) specs specName).extensions) :
    b.bytes = b'.bytes :=
  parseTransaction_signs hn hs (ss58_faithful checksum icon hd hb) h h' hc hc' hf hf' w w'

/-! ### Examples -/

/-- The well-known key of the development account Alice. -/
def alice : Bytes := [0xd4, 0x35, 0x93, 0xc7, 0x15, 0xfd, 0xd3, 0x1c, 0x61, 0x14, 0x1a, 0xbd, 0x04, 0xa9, 0x9f, 0xd6,
  0x82, 0x2c, 0x85, 0x58, 0x85, 0x4c, 0xcd, 0xe3, 0x9a, 0x56, 0x84, 0xe7, 0xa5, 0x6d, 0xa2, 0x7d]

/-- Its address on Substrate chains (prefix 42), where the checksum is 29, 33. -/
example : ss58 (fun _ => (29, 33)) alice 42 = "5GrwvaEF5zXb26Fz9rcQpDWS57CtERHpNehXCPcNoHGKutQY" := by decide +kernel

example : ss58Prefix 69 = [81, 64] := by decide +kernel

example : base58 [0, 0, 1, 2] = "115T" := by decide +kernel

example : ShowsBits Example.bitsText := by
  intro s o l
  unfold Example.bitsText
  rw [String.toList_ofList, List.filter_eq_self]
  intro c hc
  obtain ⟨b, _, rfl⟩ := List.mem_map.1 hc
  cases b <;> decide

/-- Bits in brackets, with commas. -/
def commaBits (l : List Bool) : List Char :=
  '[' :: (l.flatMap fun b => [if b then '1' else '0', ',', ' ']) ++ [']']

example : ShowsBits (fun _ _ l => String.ofList (commaBits l)) := by
  intro s o l
  rw [String.toList_ofList, commaBits, List.cons_append, List.filter_cons_of_neg (by decide), List.filter_append]
  rw [show [']'].filter (fun c => c == '0' || c == '1') = [] by decide, List.append_nil]
  induction l with
  | nil => rfl
  | cons b l ih =>
    rw [List.flatMap_cons, List.filter_append, ih]
    cases b <;> rfl

end Verif
