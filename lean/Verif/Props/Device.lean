import Verif.Proof.FlakyGood
import Verif.Proof.Steady
import Verif.Proof.LabelFree
import Verif.Props.Decode
import Verif.Props.Errors
/-!
# C57, C58: external memory that changes between accesses
-/
namespace Verif
open Spec

/-! ### Example: a call and a signature -/
namespace DeviceExample

/-- A runtime call enum (2) with a pallet's calls (1), and `MultiSignature` (4). -/
def types : List Typ :=
  [ { typeDef := .primitive .u8 },
    { path := ["pallet_balances", "pallet", "Call"],
      typeDef := .variant [{ name := "transfer", index := 5, fields := [{ name := some "amount", ty := 0 }] }] },
    { path := ["node_runtime", "RuntimeCall"],
      typeDef := .variant [{ name := "Balances", index := 3, fields := [{ ty := 1 }] }] },
    { typeDef := .array 64 0 },
    { path := ["sp_runtime", "MultiSignature"],
      typeDef := .variant [{ name := "Sr25519", index := 1,
                             fields := [{ ty := 3, typeName := some "sr25519::Signature" }] }] } ]

def reg : Registry := Registry.portable types

theorem reg_ranked : Ranked reg (fun id => id) := Example.ranked_of_check (by decide)

theorem reg_cases {id : Nat} {t : Typ} (h : reg.resolve id = .ok t) : types[id]? = some t ∧ id < 5 := by
  have hi : types[id]? = some t := by
    simp only [reg, Registry.portable] at h
    cases hx : types[id]? with
    | none => rw [hx] at h; cases h
    | some t' => rw [hx] at h; cases h; rfl
  obtain ⟨h1, _⟩ := List.getElem?_eq_some_iff.1 hi
  exact ⟨hi, h1⟩

theorem reg_nameless : LeavesNameless reg := by
  constructor
  · intro id t len elem h hd
    obtain ⟨h1, h2⟩ := reg_cases h
    match id, h2 with
    | 0, _ => cases h1; cases hd
    | 1, _ => cases h1; cases hd
    | 2, _ => cases h1; cases hd
    | 3, _ => cases h1; rfl
    | 4, _ => cases h1; cases hd
  · intro id t p h hd
    obtain ⟨h1, h2⟩ := reg_cases h
    match id, h2 with
    | 0, _ => cases h1; rfl
    | 1, _ => cases h1; cases hd
    | 2, _ => cases h1; cases hd
    | 3, _ => cases h1; cases hd
    | 4, _ => cases h1; cases hd

theorem reg_noCompact {id : Nat} {t : Typ} (h : reg.resolve id = .ok t) (inner : Nat) : t.typeDef ≠ .compact inner := by
  obtain ⟨h1, h2⟩ := reg_cases h
  intro hd
  match id, h2 with
  | 0, _ => cases h1; cases hd
  | 1, _ => cases h1; cases hd
  | 2, _ => cases h1; cases hd
  | 3, _ => cases h1; cases hd
  | 4, _ => cases h1; cases hd

theorem reg_noCompactArray : NoCompactArray reg := by
  intro id core coreId k len elem h hd
  have : ∀ {c c' id core coreId k}, Core reg c id c' core coreId k → c' = c := by
    intro c c' id core coreId k h
    induction h with
    | stop _ _ => rfl
    | struct _ _ _ _ ih => exact ih
    | compact h1 _ h3 _ => exact absurd h3 (reg_noCompact h1 _)
  exact absurd (this h) (by simp)

theorem reg_nonempty : PalletsNonempty reg := by
  rintro id t i item name inner h ⟨_, vs, v, f, t', _, _, _, _, h2, _, h4⟩ rfl
  obtain ⟨h1, h3⟩ := reg_cases h2
  generalize f.ty = j at h1 h3
  match j, h3 with
  | 0, _ => cases h1; cases h4
  | 1, _ => cases h1; cases h4
  | 2, _ => cases h1; cases h4
  | 3, _ => cases h1; cases h4
  | 4, _ => cases h1; cases h4

/-- A call: pallet 3, call 5, amount 42. -/
def call : Bytes := [3, 5, 42]

end DeviceExample

/-! ### C57: whatever the memory does, no panic, and what is decoded is there -/

section
variable {σ : Type} {D : Device σ} {R : Registry} {data : Bytes}

theorem sat_cases {α : Type} {x : Dev σ α} {P : α → Prop} (h : Sat x P) (s : σ) :
    (∃ a, (x s).1 = .ok a) ∨ ∃ e, (x s).1 = .error (.err e) := by
  rcases h s with ⟨a, h, _⟩ | ⟨e, h⟩
  · exact .inl ⟨a, h⟩
  · exact .inr ⟨e, h⟩

/-- C57. Memory that may fail at any access, now and then: decoding ends, with a value or with a
parser error. -/
theorem decodeAsTypeAtPositionD_ends (h : Flaky D R data) (id pos : Nat) (s : σ) :
    (∃ d pos', (decodeAsTypeAtPositionD D id pos s).1 = .ok (d, pos')) ∨
      ∃ e, (decodeAsTypeAtPositionD D id pos s).1 = .error (.err e) := by
  rcases sat_cases (decodeD_symbol h.honest id pos Propagated.new) s with ⟨⟨d, q⟩, h⟩ | h
  · exact .inl ⟨d, q, h⟩
  · exact .inr h

theorem decodeAllAsTypeD_sat (h : Flaky D R data) (id : Nat) : Sat (decodeAllAsTypeD D id)
    (fun d => EncLoose R false id (edValue d) data) := by
  refine Sat.bind (decodeD_symbol h.honest id 0 Propagated.new) (fun r hr => ?_)
  obtain ⟨d, q⟩ := r
  dsimp only at hr ⊢
  split
  · exact Sat.of (Fine.err _) (by intro a h; cases h)
  · rename_i hq
    refine Sat.ok ?_
    obtain ⟨bs, h1, h2, h3⟩ := hr
    have hq : q = data.length := by rw [h.len] at hq; omega
    subst h2
    have : bs = data := by
      rcases h1 with rfl | h1
      · simp at hq; exact (List.eq_nil_of_length_eq_zero hq.symm).symm
      · exact h1.unique (at_self data) (by omega)
    rw [this] at h3
    exact h3

/-- C57, `decode_all_as_type`. -/
theorem decodeAllAsTypeD_ends (h : Flaky D R data) (id : Nat) (s : σ) :
    (∃ d, (decodeAllAsTypeD D id s).1 = .ok d) ∨ ∃ e, (decodeAllAsTypeD D id s).1 = .error (.err e) :=
  sat_cases (decodeAllAsTypeD_sat h id) s

/-- C57. What is decoded has the bytes between the two positions as an encoding. Calls, events and
signatures may be told as plain enums, nothing else is left to chance. -/
theorem decodeAsTypeAtPositionD_sound (h : Flaky D R data) {id pos pos' : Nat} {s : σ} {d : ED}
    (ho : (decodeAsTypeAtPositionD D id pos s).1 = .ok (d, pos')) :
    pos ≤ pos' ∧ EncLoose R false id (edValue d) (between (Buf.ofBytes data) pos pos') := by
  rcases decodeD_symbol h.honest id pos Propagated.new s with ⟨⟨d', q⟩, h1, h2⟩ | ⟨e, h1⟩
  · have h3 : (decodeAsTypeAtPositionD D id pos s).1 = .ok (d', q) := h1
    rw [ho] at h3
    cases h3
    obtain ⟨bs, h4, rfl, h5⟩ := h2
    refine ⟨Nat.le_add_right _ _, ?_⟩
    rw [has_between h4]
    exact h5
  · have h3 : (decodeAsTypeAtPositionD D id pos s).1 = .error (.err e) := h1
    rw [ho] at h3
    cases h3

/-- C57, `decode_all_as_type`: all the data is the encoding. -/
theorem decodeAllAsTypeD_sound (h : Flaky D R data) {id : Nat} {s : σ} {d : ED}
    (ho : (decodeAllAsTypeD D id s).1 = .ok d) : EncLoose R false id (edValue d) data := by
  rcases decodeAllAsTypeD_sat h id s with ⟨d', h1, h2⟩ | ⟨e, h1⟩
  · rw [ho] at h1; cases h1; exact h2
  · rw [ho] at h1; cases h1

/-- Every schedule of failures makes such memory. -/
theorem scripted_flaky {w : Word} (R : Registry) {data : Bytes} (hw : Fits w data.length) (fails : Nat → Bool) :
    Flaky (scripted w R data fails) R data where
  len := rfl
  size := rfl
  word := hw
  read := by
    intro pos n k
    unfold scripted
    dsimp only
    cases fails k
    · exact .inl rfl
    · exact .inr rfl
  resolve := by
    intro id k
    unfold scripted
    dsimp only
    cases fails k
    · exact .inl rfl
    · exact .inr rfl

/-- The failing access decides: nothing fails, the third access fails, the second one does. -/
example : ((decodeAllAsTypeD (scripted (usize64 false) DeviceExample.reg DeviceExample.call (fun _ => false)) 2) 0).1.map edValue =
    .ok (.pallet .call "Balances" "transfer" [(some "amount", .uint .u8 42)]) := rfl
example : ((decodeAllAsTypeD (scripted (usize64 false) DeviceExample.reg DeviceExample.call (fun k => k == 2)) 2) 0).1.map edValue =
    .ok (.variant "Balances" [(none, .variant "transfer" [(some "amount", .uint .u8 42)])]) := rfl
example : ((decodeAllAsTypeD (scripted (usize64 false) DeviceExample.reg DeviceExample.call (fun k => k == 0)) 2) 0).1.map edValue =
    .error (.err (.registry .external)) := rfl

/-! ### C57: memory that keeps its answers -/

/-- C57. If the answers of the memory do not change, the state it passes through does not matter:
the outcome is the one of the model with fixed memory. -/
theorem decodeD_steady {b : Buf} (h : Steady D R b) (t : TyIn) (pos : Nat) (p : Propagated) (s : σ) :
    (decodeD D t pos p s).1 = decode R b t pos p := by
  rcases decodeD_same h.honest t pos p s with ⟨_, he, _⟩ | h
  · exact he.elim
  · exact h

theorem decodeAllAsTypeD_steady {b : Buf} (h : Steady D R b) (id : Nat) (s : σ) :
    (decodeAllAsTypeD D id s).1 = decodeAllAsType R b id := by
  have hf : Follows Nope (decodeAllAsTypeD D id) (decodeAllAsType R b id) := by
    refine (decodeD_same h.honest (.symbol id) 0 Propagated.new).bind' (fun r => ?_)
    obtain ⟨d, q⟩ := r
    dsimp only
    rw [h.len]
    split <;> exact .of _
  rcases hf s with ⟨_, he, _⟩ | h
  · exact he.elim
  · exact h

example : Steady (scripted (usize64 false) DeviceExample.reg DeviceExample.call (fun _ => false)) DeviceExample.reg (Buf.ofBytes DeviceExample.call) :=
  ⟨rfl, rfl, ⟨by decide, by decide⟩, fun _ _ _ => rfl, fun _ _ => rfl⟩

/-! ### C58: failures change nothing but labels -/

theorem enc_loose {c : Bool} {id : Nat} {v : Value} {bs : Bytes} (h : Enc R c id v bs) : EncLoose R c id v bs := by
  induction h with
  | fixed h1 h2 h3 => exact .fixed h1 h2 h3
  | hash h1 h2 h3 => exact .hash h1 h2 h3
  | era h1 h2 h3 => exact .era h1 h2 h3
  | per h1 h2 h3 => exact .per h1 h2 h3
  | perCompact h1 h2 h3 => exact .perCompact h1 h2 h3
  | newtype h1 h2 h3 _ ih => exact .newtype h1 h2 h3 ih
  | unit h1 h2 h3 => exact .unit h1 h2 h3
  | record h1 h2 h3 h4 h5 _ ih => exact .record h1 h2 h3 h4 h5 ih
  | never h1 h2 h3 => exact .never h1 h2 h3
  | variant h1 h2 h3 h4 _ _ h7 _ ih => exact .variant h1 h2 h3 h4 h7 ih
  | signature h1 h2 h3 => exact .signature h1 h2 h3
  | pallet h1 h2 h3 h4 _ ih => exact .pallet h1 h2 h3 h4 ih
  | sequence h1 h2 h3 h4 h5 _ ih => exact .sequence h1 h2 h3 h4 h5 ih
  | array h1 h2 h3 h4 _ ih => exact .array h1 h2 h3 h4 ih
  | tuple h1 h2 h3 h4 h5 _ ih => exact .tuple h1 h2 h3 h4 h5 ih
  | primitive h1 h2 h3 h4 => exact .primitive h1 h2 h3 h4
  | compact h1 h2 h3 _ ih => exact .compact h1 h2 h3 ih
  | bits h1 h2 h3 h4 h5 h6 => exact .bits h1 h2 h3 h4 h5 h6

/-- C58. A flaky memory's result, stripped of labels, is what the registry without labels reads on
reliable memory: the same value and the same position, whenever and whatever failed. -/
theorem decodeAsTypeAtPositionD_plain (h : Flaky D R data) (hk : EmptyArraysGrounded R) (hn : LeavesNameless R)
    (hc : NoCompactArray R) {id pos pos' : Nat} (hp : pos ≤ data.length) {s : σ} {d : ED}
    (ho : (decodeAsTypeAtPositionD D id pos s).1 = .ok (d, pos')) :
    ∃ d0, decodeAsTypeAtPosition (unlabelled R) (Buf.ofBytes data) id pos = .ok (d0, pos') ∧ Labels (edValue d0) (edValue d) := by
  rcases decodeD_symbol h.honest id pos Propagated.new s with ⟨⟨d', q⟩, h1, h2⟩ | ⟨e, h1⟩
  · have h3 : (decodeAsTypeAtPositionD D id pos s).1 = .ok (d', q) := h1
    rw [ho] at h3
    cases h3
    obtain ⟨bs, h4, rfl, h5⟩ := h2
    obtain ⟨u, h6, h7⟩ := encLoose_plain hn hc h5
    obtain ⟨d0, h8, h9⟩ := decode_complete (unlabelled_emptyArrays hk) (reliable_ofBytes data) (p := Propagated.new) ⟨rfl, rfl⟩ h6 (h4.at hp)
    exact ⟨d0, h8, h9 ▸ h7⟩
  · have h3 : (decodeAsTypeAtPositionD D id pos s).1 = .error (.err e) := h1
    rw [ho] at h3
    cases h3

/-- C58. If decoding succeeds on reliable memory, then on memory that fails now and then it either
stops with the memory's own error, or succeeds with the same end position and the same value but for
labels. (Except if some pallets have no calls or events, and in the value there is the value of an enum
without variants; no valid data has that.) Any other error means that decoding fails on reliable memory too. -/
theorem decodeAsTypeAtPositionD_agrees (h : Flaky D R data) (hk : EmptyArraysGrounded R) (hn : LeavesNameless R)
    (hc : NoCompactArray R) {id pos pos' : Nat} (hp : pos ≤ data.length) {d : ED} (hpn : ¬ TellsEmpty R (edValue d))
    (ho : decodeAsTypeAtPosition R (Buf.ofBytes data) id pos = .ok (d, pos')) (s : σ) :
    (∃ e, MemoryError e ∧ (decodeAsTypeAtPositionD D id pos s).1 = .error e) ∨
      ∃ d', (decodeAsTypeAtPositionD D id pos s).1 = .ok (d', pos') ∧ SameButLabels (edValue d) (edValue d') := by
  obtain ⟨bs, h1, h2, h3⟩ := (decode_parses R (Buf.ofBytes data) (.symbol id) Propagated.new).sound ho
  subst h2
  have h4 : Enc R false id (edValue d) bs := run_sound.symbol h3
  obtain ⟨u, h6, h7⟩ := encLoose_plain hn hc (enc_loose h4)
  rcases decodeD_complete h.honest (reliable_ofBytes data) hk hn (not_tellsEmpty h7 hpn) h6 (p := Propagated.new) rfl rfl (h1.at hp) s with
    ⟨d', h8, h9⟩ | ⟨e, he, h8⟩
  · exact .inr ⟨d', h8, u, h7, h9⟩
  · exact .inl ⟨e, he, h8⟩

/-- C58, `decode_all_as_type`. -/
theorem decodeAllAsTypeD_agrees (h : Flaky D R data) (hk : EmptyArraysGrounded R) (hn : LeavesNameless R)
    (hc : NoCompactArray R) {id : Nat} {d : ED} (hpn : ¬ TellsEmpty R (edValue d))
    (ho : decodeAllAsType R (Buf.ofBytes data) id = .ok d) (s : σ) :
    (∃ e, MemoryError e ∧ (decodeAllAsTypeD D id s).1 = .error e) ∨
      ∃ d', (decodeAllAsTypeD D id s).1 = .ok d' ∧ SameButLabels (edValue d) (edValue d') := by
  unfold decodeAllAsType at ho
  obtain ⟨⟨d1, q⟩, h1, h2⟩ := bind_ok.1 ho
  dsimp only at h2
  split at h2
  · cases h2
  · rename_i hq
    cases h2
    have hq : q = data.length := by
      have : (Buf.ofBytes data).len = data.length := rfl
      omega
    have hd : ∀ s, (decodeAllAsTypeD D id s).1 = match (decodeAsTypeAtPositionD D id 0 s).1 with
        | .ok (d, q) => if q ≠ D.len then .error (.err (.someDataNotUsedBlob q)) else .ok d
        | .error e => .error e := by
      intro s
      show (Dev.bind _ _ s).1 = _
      unfold Dev.bind
      rcases decodeAsTypeAtPositionD D id 0 s with ⟨o, s'⟩
      cases o with
      | error e => rfl
      | ok r =>
        obtain ⟨d, q⟩ := r
        dsimp only
        split <;> rfl
    rw [hd s]
    rcases decodeAsTypeAtPositionD_agrees h hk hn hc (Nat.zero_le _) hpn h1 s with ⟨e, he, h3⟩ | ⟨d', h3, h4⟩
    · exact .inl ⟨e, he, by rw [h3]⟩
    · refine .inr ⟨d', ?_, h4⟩
      rw [h3]
      dsimp only
      rw [if_neg (by rw [h.len, hq]; simp)]

/-- C58. Without calls, events and signatures among the types, what is decoded from unsteady memory is
what is decoded from reliable memory. -/
theorem decodeAsTypeAtPositionD_exact (h : Flaky D R data) (hk : EmptyArraysGrounded R) (hl : NoLabels R)
    {id pos pos' : Nat} (hp : pos ≤ data.length) {s : σ} {d : ED}
    (ho : (decodeAsTypeAtPositionD D id pos s).1 = .ok (d, pos')) :
    ∃ d0, decodeAsTypeAtPosition R (Buf.ofBytes data) id pos = .ok (d0, pos') ∧ edValue d0 = edValue d := by
  have hloose : ∀ {c id v bs}, EncLoose R c id v bs → Enc R c id v bs := by
    intro c id v bs h
    induction h with
    | fixed h1 h2 h3 => exact .fixed h1 h2 h3
    | hash h1 h2 h3 => exact .hash h1 h2 h3
    | era h1 h2 h3 => exact .era h1 h2 h3
    | per h1 h2 h3 => exact .per h1 h2 h3
    | perCompact h1 h2 h3 => exact .perCompact h1 h2 h3
    | newtype h1 h2 h3 _ ih => exact .newtype h1 h2 h3 ih
    | unit h1 h2 h3 => exact .unit h1 h2 h3
    | record h1 h2 h3 h4 h5 _ ih => exact .record h1 h2 h3 h4 h5 ih
    | never h1 h2 h3 => exact .never h1 h2 h3
    | variant h1 h2 h3 h4 h7 _ ih =>
      exact .variant h1 h2 h3 h4 (fun k hk => (hl _ _ _ h1 h3).1 hk.1) (fun item n inner hp => (hl _ _ _ h1 h3).2 item hp.1) h7 ih
    | signature h1 h2 h3 => exact .signature h1 h2 h3
    | pallet h1 h2 h3 h4 _ ih => exact .pallet h1 h2 h3 h4 ih
    | sequence h1 h2 h3 h4 h5 _ ih => exact .sequence h1 h2 h3 h4 h5 ih
    | array h1 h2 h3 h4 _ ih => exact .array h1 h2 h3 h4 ih
    | tuple h1 h2 h3 h4 h5 _ ih => exact .tuple h1 h2 h3 h4 h5 ih
    | primitive h1 h2 h3 h4 => exact .primitive h1 h2 h3 h4
    | compact h1 h2 h3 _ ih => exact .compact h1 h2 h3 ih
    | bits h1 h2 h3 h4 h5 h6 => exact .bits h1 h2 h3 h4 h5 h6
  rcases decodeD_symbol h.honest id pos Propagated.new s with ⟨⟨d', q⟩, h1, h2⟩ | ⟨e, h1⟩
  · have h3 : (decodeAsTypeAtPositionD D id pos s).1 = .ok (d', q) := h1
    rw [ho] at h3
    cases h3
    obtain ⟨bs, h4, rfl, h5⟩ := h2
    obtain ⟨d0, h8, h9⟩ := decode_complete hk (reliable_ofBytes data) (p := Propagated.new) ⟨rfl, rfl⟩ (hloose h5) (h4.at hp)
    exact ⟨d0, h8, h9⟩
  · have h3 : (decodeAsTypeAtPositionD D id pos s).1 = .error (.err e) := h1
    rw [ho] at h3
    cases h3

/-- C58. Conversely, what is decoded from unsteady memory is decoded from reliable memory: the same end
position, and the same value but for labels. A failing memory never makes bad data look good. (Here
`R` is what the memory should answer; it has no failures of its own.) -/
theorem decodeAsTypeAtPositionD_converse (h : Flaky D R data) (hk : EmptyArraysGrounded R) (hn : LeavesNameless R)
    (hc : NoCompactArray R) (hR : ∀ id, R.resolve id ≠ .error .external)
    {id pos pos' : Nat} (hp : pos ≤ data.length) {s : σ} {d' : ED} (hpn : ¬ TellsEmpty R (edValue d'))
    (ho : (decodeAsTypeAtPositionD D id pos s).1 = .ok (d', pos')) :
    ∃ d, decodeAsTypeAtPosition R (Buf.ofBytes data) id pos = .ok (d, pos') ∧ SameButLabels (edValue d) (edValue d') := by
  rcases decodeD_symbol h.honest id pos Propagated.new s with ⟨⟨d', q⟩, h1, h2⟩ | ⟨e, h1⟩
  · have h3 : (decodeAsTypeAtPositionD D id pos s).1 = .ok (d', q) := h1
    rw [ho] at h3
    cases h3
    obtain ⟨bs, h4, rfl, h5⟩ := h2
    obtain ⟨u, h6, h7⟩ := encLoose_plain hn hc h5
    have hfit : Fits D.word data.length := by have := h.word; rwa [h.len] at this
    have hst : Steady (scripted D.word R data (fun _ => false)) R (Buf.ofBytes data) :=
      ⟨rfl, rfl, hfit, fun _ _ _ => rfl, fun _ _ => rfl⟩
    have hs := decodeD_steady hst (.symbol id) pos Propagated.new 0
    rcases decodeD_complete (scripted_flaky R hfit (fun _ => false)).honest (reliable_ofBytes data) hk hn (not_tellsEmpty h7 hpn) h6
      (p := Propagated.new) rfl rfl (h4.at hp) 0 with ⟨d, h8, h9⟩ | ⟨e, he, h8⟩
    · rw [hs] at h8
      exact ⟨d, h8, u, h9, h7⟩
    · exfalso
      rw [hs] at h8
      rcases he with rfl | rfl
      · cases decode_errors_true h8 with
        | memory _ hf => cases hf
      · cases decode_errors_true h8 with
        | registry ht => cases ht with
          | unresolved hr => exact hR _ hr
  · have h3 : (decodeAsTypeAtPositionD D id pos s).1 = .error (.err e) := h1
    rw [ho] at h3
    cases h3

/-- C58. A type in which no call, event or signature takes part, in any registry: on unsteady memory the
outcome is exactly the outcome on reliable memory, with all annotations and with the same error, or it
is the memory's own error. -/
theorem decodeAsTypeAtPositionD_labelFree (h : Flaky D R data) {id : Nat} (hl : LabelFree R id) (pos : Nat) (s : σ) :
    (∃ e, MemoryError e ∧ (decodeAsTypeAtPositionD D id pos s).1 = .error e) ∨
      (decodeAsTypeAtPositionD D id pos s).1 = decodeAsTypeAtPosition R (Buf.ofBytes data) id pos :=
  decodeD_labelFree h.honest hl pos Propagated.new s

end

/-- A number is label-free in a registry with calls; the call type is not. -/
example : LabelFree DeviceExample.reg 0 ∧ ¬ LabelFree DeviceExample.reg 2 := by
  refine ⟨?_, fun h => (h 2 _ _ .self rfl rfl).2 .call rfl⟩
  have h0 : ∀ id', Reaches DeviceExample.reg 0 id' → id' = 0 := by
    intro id' h
    induction h with
    | self => rfl
    | part _ hr _ hx ih =>
      subst ih
      cases hr
      cases hx
  intro id' t vs h hr hd
  rw [h0 id' h] at hr
  cases hr
  cases hd

/-- The conditions hold for a registry with calls and signatures; the call is decoded there. -/
example : EmptyArraysGrounded DeviceExample.reg ∧ LeavesNameless DeviceExample.reg ∧ NoCompactArray DeviceExample.reg ∧
    PalletsNonempty DeviceExample.reg ∧
    (decodeAllAsType DeviceExample.reg (Buf.ofBytes DeviceExample.call) 2).map edValue =
      .ok (.pallet .call "Balances" "transfer" [(some "amount", .uint .u8 42)]) :=
  ⟨DeviceExample.reg_ranked.emptyArrays, DeviceExample.reg_nameless, DeviceExample.reg_noCompactArray, DeviceExample.reg_nonempty, rfl⟩

example : NoLabels Example.good := by
  intro id t vs h hd
  have hi : id < Example.types.length ∧ (Example.types.set 10 { typeDef := .primitive .u8 })[id]? = some t := by
    simp only [Example.good, Registry.portable] at h
    cases hx : (Example.types.set 10 { typeDef := .primitive .u8 })[id]? with
    | none => rw [hx] at h; cases h
    | some t' =>
      rw [hx] at h; cases h
      obtain ⟨h1, _⟩ := List.getElem?_eq_some_iff.1 hx
      exact ⟨by simpa using h1, rfl⟩
  have hall : ∀ t ∈ Example.types.set 10 { typeDef := .primitive .u8 },
      special t.path ≠ some .multiSignature ∧ special t.path ≠ some (.pallet .call) ∧ special t.path ≠ some (.pallet .event) := by decide
  have := hall t (List.mem_of_getElem? hi.2)
  exact ⟨this.1, fun item => by cases item; exact this.2.1; exact this.2.2⟩

end Verif
