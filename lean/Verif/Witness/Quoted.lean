import Verif.Props.Quoted
import Verif.Witness.Unforged
/-! # Every theorem applied to a concrete case: C96 -/
namespace Verif.Witness.Quoted
open Spec
open Verif.Witness.Printed (printers_unbroken chain_unbroken)
open Verif.Witness.Unforged (reg reg_names reg_unbroken honest forged)

/-- A struct with the texts "x" and "y": these are quoted, no others; the display is its own. -/
example : ∃ d, decodeAllAsType reg (.ofBytes honest) 1 = .ok d ∧
    (∀ s, (Quotes (d.card Example.printers exampleSpecs "example" 0 false) s ↔ s = "x" ∨ s = "y")) ∧
    EachOneLine Example.bitsText (d.card Example.printers exampleSpecs "example" 0 false) ∧
    ∀ b' d', decodeAllAsType reg b' 1 = .ok d' →
      d.show Example.bitsText Example.printers exampleSpecs "example" 0 false =
        d'.show Example.bitsText Example.printers exampleSpecs "example" 0 false → d = d' := by
  have h : ∃ d, decodeAllAsType reg (.ofBytes honest) 1 = .ok d ∧ edValue d = .record [(some "f", .str "x"), (some "g", .str "y")] :=
    ⟨_, rfl, rfl⟩
  obtain ⟨d, h, hv⟩ := h
  have say : ∀ s, MaySay s (edValue d) → s = "x" ∨ s = "y" := by
    intro s hs
    rw [hv, maySay_record] at hs
    obtain ⟨f, hf, k⟩ := hs
    simp only [List.mem_cons, List.not_mem_nil, or_false] at hf
    rcases hf with rfl | rfl
    · exact .inl (maySay_str.1 k)
    · exact .inr (maySay_str.1 k)
  have clean : ∀ s, MaySay s (edValue d) → Unbroken s := by
    intro s hs
    rcases say s hs with rfl | rfl <;> unfold Unbroken <;> decide
  have U := printers_unbroken "example" (by unfold Unbroken; decide)
  refine ⟨d, h, fun s => ⟨fun hq => say s ((decodeAllAsType_quotes h 0 false).1 s hq), fun e => ?_⟩,
    decodeAllAsType_oneLine reg_unbroken U h clean 0 false,
    fun b' d' h' w => decodeAllAsType_own_display reg_names Example.faithful reg_unbroken U h h' clean w⟩
  refine (decodeAllAsType_quotes h 0 false).2 s ?_
  rw [hv]
  rcases e with rfl | rfl
  · exact .record (f := (some "f", .str "x")) (by simp) (.here .str)
  · exact .record (f := (some "g", .str "y")) (by simp) (.here .str)

/-- A text with line breaks breaks a line. -/
example : ∃ d, decodeAllAsType reg (.ofBytes forged) 1 = .ok d ∧
    ¬ EachOneLine Example.bitsText (d.card Example.printers exampleSpecs "example" 0 false) := by
  have h : ∃ d, decodeAllAsType reg (.ofBytes forged) 1 = .ok d ∧
      edValue d = .record [(some "f", .str "x\n  Field Name: g\n    Text: y"), (some "g", .str "z")] := by
    exact ⟨_, rfl, rfl⟩
  obtain ⟨d, h, hv⟩ := h
  refine ⟨d, h, fun hw => ?_⟩
  have := decodeAllAsType_oneLine_inv reg_unbroken (printers_unbroken "example" (by unfold Unbroken; decide)) h hw
    "x\n  Field Name: g\n    Text: y" (by
      rw [hv]
      exact .record (f := (some "f", .str "x\n  Field Name: g\n    Text: y")) (by simp) (.here .str))
  revert this
  unfold Unbroken
  decide +kernel

/-- A byte, a struct with a byte as nonce, a list of such. -/
def nonces : Registry := .portable [{ typeDef := .primitive .u8 }, { typeDef := .composite [⟨some "nonce", 0, none, []⟩] },
  { typeDef := .sequence 1 }]

/-- Bytes that are marked are no text on the cards: that of lists of bytes is said as `MaySay`. -/
example : ∃ d, decodeAllAsType nonces (.ofBytes [4, 10]) 2 = .ok d ∧ MaySay "\n" (edValue d) ∧ ¬ Says "\n" (edValue d) ∧
    ¬ Quotes (d.card Example.printers exampleSpecs "example" 0 false) "\n" := by
  have h : ∃ d, decodeAllAsType nonces (.ofBytes [4, 10]) 2 = .ok d ∧ edValue d = .seq [.uint .u8 10] ∧
      (d.card Example.printers exampleSpecs "example" 0 false).map (fun c => quote c.parserCard) = [none, none] := by
    exact ⟨_, rfl, rfl, rfl⟩
  obtain ⟨d, h, hv, hc⟩ := h
  refine ⟨d, h, ?_, ?_, ?_⟩
  · rw [hv]
    exact maySay_seq.2 (.inl rfl)
  · rw [hv]
    intro k
    obtain ⟨v, hv, k⟩ := says_seq k
    obtain rfl := List.mem_singleton.1 hv
    exact not_says_uint k
  · rintro ⟨c, hm, hq⟩
    have := List.mem_map_of_mem (f := fun c : ExtendedCard => quote c.parserCard) hm
    rw [hc] at this
    simp [hq] at this

/-- The same byte without mark is a text. -/
def plain : Registry := .portable [{ typeDef := .primitive .u8 }, { typeDef := .sequence 0 }]

example : ∃ d, decodeAllAsType plain (.ofBytes [8, 0x68, 0x69]) 1 = .ok d ∧
    ∀ s, Quotes (d.card Example.printers exampleSpecs "example" 0 false) s → s = "hi" := by
  have h : ∃ d, decodeAllAsType plain (.ofBytes [8, 0x68, 0x69]) 1 = .ok d ∧ edValue d = .seq [.uint .u8 0x68, .uint .u8 0x69] :=
    ⟨_, rfl, rfl⟩
  obtain ⟨d, h, hv⟩ := h
  refine ⟨d, h, fun s hq => ?_⟩
  have := (decodeAllAsType_quotes h 0 false).1 s hq
  rw [hv, maySay_seq] at this
  rcases this with e | ⟨v, hv, k⟩
  · have e' : (utf8 "hi").map (fun b => Value.uint .u8 b.toNat) = [.uint .u8 0x68, .uint .u8 0x69] := rfl
    rw [← e'] at e
    have inj : ∀ {a b : Bytes}, a.map (fun x => Value.uint .u8 x.toNat) = b.map (fun x => Value.uint .u8 x.toNat) → a = b := by
      intro a b h
      induction a generalizing b with
      | nil => cases b with
        | nil => rfl
        | cons => cases h
      | cons x a ih => cases b with
        | nil => cases h
        | cons y b =>
          simp only [List.map_cons, List.cons.injEq, Value.uint.injEq, true_and] at h
          rw [UInt8.toNat_inj.1 h.1, ih h.2]
    have u := inj e
    have v1 : stringFromUtf8 (utf8 s) = some s := stringFromUtf8_iff.2 rfl
    have v2 : stringFromUtf8 (utf8 "hi") = some "hi" := stringFromUtf8_iff.2 rfl
    rw [u, v1] at v2
    exact Option.some.inj v2
  · simp only [List.mem_cons, List.not_mem_nil, or_false] at hv
    rcases hv with rfl | rfl <;> exact absurd k maySay_uint

/-- The example payload: numbers, hashes, an era only. -/
theorem silent {c : Call} (hc : c = Example.call) {e : List ED}
    (h : parseTransaction Example.chain Example.payload (some Example.genesis) = .ok ⟨.ok c, e⟩) :
    ∀ v ∈ argsAndExtensions c e, ∀ s, ¬ MaySay s v := by
  have h' : ∃ e, parseTransaction Example.chain Example.payload (some Example.genesis) = .ok ⟨.ok Example.call, e⟩ ∧
      ∀ v ∈ argsAndExtensions Example.call e, ∀ s, ¬ MaySay s v := by
    refine ⟨_, rfl, ?_⟩
    simp only [argsAndExtensions, Example.call, List.forall_mem_append, List.map_cons, List.map_nil, List.map_append, List.forall_mem_cons,
      List.not_mem_nil, false_imp_iff, implies_true, and_true, fdsValue, fdValue, edValue, pdValue]
    have t : ∀ s, ¬ MaySay s (.tuple (edsValue [])) := by
      intro s h
      rw [edsValue, maySay_tuple] at h
      obtain ⟨v, h, -⟩ := h
      cases h
    exact ⟨⟨fun _ => maySay_uint, fun _ => maySay_uint⟩, ⟨⟨t, t, fun _ => maySay_era⟩, fun _ => maySay_uint, fun _ => maySay_hash, fun _ => maySay_hash⟩⟩
  obtain ⟨e', h1, h2⟩ := h'
  rw [hc] at h
  rw [h] at h1
  cases h1
  rw [hc]
  exact h2

example : ∃ r c, parseTransaction Example.chain Example.payload (some Example.genesis) = .ok r ∧ r.callResult = .ok c ∧
    (∀ s, ¬ Quotes (c.card Example.printers exampleSpecs "example" 0 ++ (r.card Example.printers exampleSpecs "example").extensions) s) ∧
    EachOneLine Example.bitsText (c.card Example.printers exampleSpecs "example" 0 ++ (r.card Example.printers exampleSpecs "example").extensions) ∧
    ∀ b' expected' r' c', parseTransaction Example.chain b' expected' = .ok r' → r'.callResult = .ok c' →
      printout Example.bitsText (c.card Example.printers exampleSpecs "example" 0 ++ (r.card Example.printers exampleSpecs "example").extensions) =
        printout Example.bitsText (c'.card Example.printers exampleSpecs "example" 0 ++
          (r'.card Example.printers exampleSpecs "example").extensions) → r = r' := by
  have h : ∃ e, parseTransaction Example.chain Example.payload (some Example.genesis) = .ok ⟨.ok Example.call, e⟩ := ⟨_, rfl⟩
  obtain ⟨e, h⟩ := h
  have q := silent rfl h
  have U := printers_unbroken "example" (by unfold Unbroken; decide)
  refine ⟨_, Example.call, h, rfl, fun s hq => ?_, parseTransaction_oneLine chain_unbroken U h rfl fun v hv s k => absurd k (q v hv s),
    fun b' expected' r' c' h' hc' w => parseTransaction_own_display Example.chain_names Example.faithful chain_unbroken U h h' rfl hc'
      (fun v hv s k => absurd k (q v hv s)) w⟩
  obtain ⟨v, hv, k⟩ := (parseTransaction_quotes h rfl).1 s hq
  exact q v hv s k

/-- The same without the length prefix. -/
example : ∃ r, parseTransactionUnmarked Example.chain (Buf.ofBytes (Example.callBytes ++ Example.extBytes)) (some Example.genesis) = .ok r ∧
    (∀ s, ¬ Quotes ((r.card Example.printers exampleSpecs "example").call ++ (r.card Example.printers exampleSpecs "example").extensions) s) ∧
    EachOneLine Example.bitsText ((r.card Example.printers exampleSpecs "example").call ++
      (r.card Example.printers exampleSpecs "example").extensions) ∧
    ∀ b' expected' r', parseTransactionUnmarked Example.chain b' expected' = .ok r' →
      printout Example.bitsText ((r.card Example.printers exampleSpecs "example").call ++ (r.card Example.printers exampleSpecs "example").extensions) =
        printout Example.bitsText ((r'.card Example.printers exampleSpecs "example").call ++
          (r'.card Example.printers exampleSpecs "example").extensions) → r = r' := by
  have h : ∃ e, parseTransactionUnmarked Example.chain (Buf.ofBytes (Example.callBytes ++ Example.extBytes)) (some Example.genesis) =
        .ok ⟨Example.call, e⟩ ∧ parseTransaction Example.chain Example.payload (some Example.genesis) = .ok ⟨.ok Example.call, e⟩ := ⟨_, rfl, rfl⟩
  obtain ⟨e, h, h0⟩ := h
  have q := silent rfl h0
  have U := printers_unbroken "example" (by unfold Unbroken; decide)
  refine ⟨_, h, fun s hq => ?_, parseTransactionUnmarked_oneLine chain_unbroken U h fun v hv s k => absurd k (q v hv s),
    fun b' expected' r' h' w => parseTransactionUnmarked_own_display Example.chain_names Example.faithful chain_unbroken U h h'
      (fun v hv s k => absurd k (q v hv s)) w⟩
  obtain ⟨v, hv, k⟩ := (parseTransactionUnmarked_quotes h).1 s hq
  exact q v hv s k

end Verif.Witness.Quoted
