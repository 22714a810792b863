import Verif.Proof.Complete
/-!
A small registry used in the examples beside the theorems.
-/
namespace Verif.Example
open Spec

/-- Types: `0: u8`, `1: u32`, `2: Compact<u32>`, `3: Vec<u8>`,
`4: struct { a: u8, b: Compact<u32>, c: Vec<u8> }`, `5: enum Option<4>`,
`6: ()`, `7: Vec<()>`, `8: struct W(4)`, `9: H256`, `10: struct X(10)` (cyclic),
`11: bool`, `12: Compact<bool>`, `13: [W; 2]`, `14: struct L { next: Option14, .. }`. -/
def types : List Typ :=
  [ { typeDef := .primitive .u8 },
    { typeDef := .primitive .u32 },
    { typeDef := .compact 1 },
    { typeDef := .sequence 0 },
    { path := ["a", "S"], typeDef := .composite
        [{ name := some "a", ty := 0 }, { name := some "b", ty := 2 }, { name := some "c", ty := 3 }] },
    { path := ["Option"], typeDef := .variant
        [{ name := "None", index := 0 }, { name := "Some", index := 1, fields := [{ ty := 4 }] }] },
    { typeDef := .tuple [] },
    { typeDef := .sequence 6 },
    { path := ["W"], typeDef := .composite [{ ty := 4 }] },
    { path := ["primitive_types", "H256"], typeDef := .composite [{ ty := 0 }] },
    { path := ["X"], typeDef := .composite [{ ty := 10 }] },
    { typeDef := .primitive .bool },
    { typeDef := .compact 11 },
    { typeDef := .array 2 8 } ]

/-- Registry of the types. -/
def reg : Registry := Registry.portable types

/-- Same without the self-containing type. -/
def good : Registry := Registry.portable (types.set 10 { typeDef := .primitive .u8 })

/-- Rank of the types. -/
def rank : Nat → Nat
  | 2 => 1 | 4 => 2 | 8 => 3 | 9 => 1 | 12 => 1 | 13 => 4 | _ => 0

/-- Check of a ranking for one type. -/
def partsOf : TypeDef → List Nat
  | .composite fields => fields.map (·.ty)
  | .tuple ids => ids
  | .array _ elem => [elem]
  | .compact inner => [inner]
  | _ => []

/-- A ranking can be checked type by type. -/
theorem ranked_of_check {ts : List Typ} {rk : Nat → Nat}
    (h : (List.range ts.length).all (fun i =>
      match ts[i]? with
      | some t => (partsOf t.typeDef).all (fun j => decide (rk j < rk i))
      | none => true) = true) : Ranked (Registry.portable ts) rk := by
  intro id t ht
  have hi : ts[id]? = some t := by
    simp only [Registry.portable] at ht
    cases hx : ts[id]? with
    | none => rw [hx] at ht; cases ht
    | some t' => rw [hx] at ht; cases ht; rfl
  have hlt : id < ts.length := by
    obtain ⟨h1, _⟩ := List.getElem?_eq_some_iff.1 hi; exact h1
  have h1 := List.all_eq_true.1 h id (List.mem_range.2 hlt)
  rw [hi] at h1
  have h2 : ∀ j ∈ partsOf t.typeDef, rk j < rk id := by
    intro j hj
    have := List.all_eq_true.1 h1 j hj
    simpa using this
  refine ⟨?_, ?_, ?_, ?_⟩
  · intro fields hd f hf; apply h2; rw [hd]; exact List.mem_map.2 ⟨f, hf, rfl⟩
  · intro ids hd i hi; apply h2; rw [hd]; exact hi
  · intro n elem hd; apply h2; rw [hd]; exact List.mem_singleton.2 rfl
  · intro inner hd; apply h2; rw [hd]; exact List.mem_singleton.2 rfl

theorem good_ranked : Ranked good rank := ranked_of_check (by decide)

/-- Encoding of `S { a: 7, b: 300, c: [1, 2] }`. -/
def sBytes : Bytes := [7, 0xb1, 0x04, 8, 1, 2]

/-- Value `S { a: 7, b: 300, c: [1, 2] }`. -/
def sValue : Value :=
  .record [(some "a", .uint .u8 7), (some "b", .uint .u32 300),
    (some "c", .seq [.uint .u8 1, .uint .u8 2])]

theorem core_u8 : Core good false 0 false { typeDef := .primitive .u8 } 0 0 :=
  .stop rfl (fun _ => ⟨by intro f; simp, by intro f; simp⟩)

theorem u8_enc (v : Nat) (h : v < 256) : Enc good false 0 (.uint .u8 v) (leBytes 1 v) :=
  .primitive (t := { typeDef := .primitive .u8 }) rfl trivial rfl (.uint .u8 (by simpa [UW.bytes] using h))

/-- The struct type. -/
def sType : Typ :=
  { path := ["a", "S"], typeDef := .composite
      [{ name := some "a", ty := 0 }, { name := some "b", ty := 2 }, { name := some "c", ty := 3 }] }

theorem s_enc : Enc good false 4 sValue sBytes := by
  have hc : Enc good false 2 (.uint .u32 300) (compactEncode 300) :=
    .compact (t := { typeDef := .compact 1 }) rfl trivial rfl
      (.primitive (t := { typeDef := .primitive .u32 }) rfl trivial rfl (.compact .u32 (by decide)))
  have hv : Enc good false 3 (.seq [.uint .u8 1, .uint .u8 2]) [8, 1, 2] :=
    .sequence (t := { typeDef := .sequence 0 }) (ps := [(.uint .u8 1, leBytes 1 1), (.uint .u8 2, leBytes 1 2)])
      rfl trivial rfl ⟨_, _, _, _, core_u8⟩ (by simp) (by
        intro x hx
        simp only [List.mem_cons, List.not_mem_nil, or_false] at hx
        rcases hx with rfl | rfl
        · exact u8_enc 1 (by decide)
        · exact u8_enc 2 (by decide))
  exact .record (t := sType)
      (ps := [(.uint .u8 7, [7]), (.uint .u32 300, compactEncode 300),
        (.seq [.uint .u8 1, .uint .u8 2], [8, 1, 2])]) rfl trivial rfl (by simp) rfl (by
      intro x hx
      simp only [List.map_cons, List.map_nil, List.zip_cons_cons, List.zip_nil_right, List.mem_cons,
        List.not_mem_nil, or_false] at hx
      rcases hx with rfl | rfl | rfl
      · exact u8_enc 7 (by decide)
      · exact hc
      · exact hv)

end Verif.Example
