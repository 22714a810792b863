import Verif.Proof.Accounts
import Verif.Proof.Screen
import Verif.Props.Hints
/-!
# The lines of accounts in storage
-/
namespace Verif.Layout
open Spec Spec.Westend Verif.Westend

variable {ts : List Typ} {h : Hint} {is : List Info} {d : ED} {P : Printers} {specs : ShortSpecs} {name : String}
  {showBits : BitStore → BitOrder → List Bool → String}

theorem shown_has {id : Nat} {path : List String} {def' : TypeDef} (ht : Layout.has ts id path def' = true)
    (hs : Check.structural path = true) (hd : Shown (.portable ts) h is id d) :
    ∃ t, (Registry.portable ts).resolve id = .ok t ∧ t.typeDef = def' ∧ ShownDef (.portable ts) h is t d := by
  obtain ⟨t, hr, rfl, hd'⟩ := Layout.has_type ht
  exact ⟨t, hr, hd', (shownAs_structural (Wallet'.structural_iff.1 hs)).1 (shown_as hr hd)⟩

theorem record_shown {id : Nat} {path : List String} {f g : Field} {fs : List Field}
    (ht : Layout.has ts id path (.composite (f :: g :: fs)) = true) (hs : Check.structural path = true)
    (hd : Shown (.portable ts) .none is id d) :
    ∃ ds : List FD, d.data = .composite ds ∧ ds.length = (f :: g :: fs).length ∧
      (∀ x ∈ (f :: g :: fs).zip ds, x.2.fieldName = x.1.name) ∧
      (∀ x ∈ (f :: g :: fs).zip ds, Shown (.portable ts) (fieldLabel x.1) [] x.1.ty x.2.data) := by
  obtain ⟨t, -, e, hd⟩ := shown_has ht hs hd
  unfold ShownDef at hd
  rw [e] at hd
  obtain ⟨ds, h1, h2, h3, h4⟩ := hd
  refine ⟨ds, h1, h2, h3, fun x hx => ?_⟩
  have := h4 x hx
  simpa [handed, first] using this

theorem newtype_shown {id : Nat} {path : List String} {f : Field} (ht : Layout.has ts id path (.composite [f]) = true)
    (hs : Check.structural path = true) (hd : Shown (.portable ts) h is id d) :
    ∃ fd : FD, d.data = .composite [fd] ∧ fd.fieldName = f.name ∧ Shown (.portable ts) (first h (fieldLabel f)) [] f.ty fd.data := by
  obtain ⟨t, -, e, hd⟩ := shown_has ht hs hd
  unfold ShownDef at hd
  rw [e] at hd
  obtain ⟨ds, h1, h2, h3, h4⟩ := hd
  obtain ⟨fd, rfl⟩ := list1 h2
  exact ⟨fd, h1, h3 (f, fd) (by simp), by simpa [handed] using h4 (f, fd) (by simp)⟩

theorem uint_shown {id : Nat} {p : Prim} {w : UW} {n : Nat} (ht : Layout.has ts id [] (.primitive p) = true) (hp : IsUInt p w)
    (hd : Shown (.portable ts) h is id d) (hv : edValue d = .uint w n) : d.data = .uint w n (uintLabel h) := by
  obtain ⟨t, -, e, hd⟩ := shown_has ht (by decide) hd
  unfold ShownDef at hd
  rw [e] at hd
  obtain ⟨w', v, -, h1⟩ | h1 := hd
  · rw [edValue_of h1] at hv
    cases hv
    exact h1
  · exact absurd hp (h1 w)

theorem fdsValue_cons (a : FD) (l : List FD) : fdsValue (a :: l) = (a.fieldName, edValue a.data) :: fdsValue l := by
  obtain ⟨_, _, _, _⟩ := a; rfl

theorem fdsValue_nil : fdsValue [] = [] := rfl

variable {third fourth : String} {x : AccountInfo}

/-- The tree of an account. -/
theorem account_tree {p3 p5 : List String} {n ln : Option String} {last : Nat} {lbl : SpecUInt}
    (h3 : Layout.has ts 3 p3 (.composite [⟨some "nonce", 4, n, []⟩, ⟨some "consumers", 4, some "RefCount", []⟩,
      ⟨some "providers", 4, some "RefCount", []⟩, ⟨some "sufficients", 4, some "RefCount", []⟩, ⟨some "data", 5, some "AccountData", []⟩]) = true)
    (hp3 : Check.structural p3 = true)
    (h5 : Layout.has ts 5 p5 (.composite [⟨some "free", 6, some "Balance", []⟩,
      ⟨some "reserved", 6, some "Balance", []⟩, ⟨some third, 6, some "Balance", []⟩, ⟨some fourth, last, ln, []⟩]) = true)
    (hp5 : Check.structural p5 = true) (h4 : Layout.has ts 4 [] (.primitive .u32) = true) (h6 : Layout.has ts 6 [] (.primitive .u128) = true)
    (ht : uintLabel (fieldLabel ⟨some third, 6, some "Balance", []⟩) = .balance)
    (hl : ∀ d m, Shown (.portable ts) (fieldLabel ⟨some fourth, last, ln, []⟩) [] last d → edValue d = .uint .u128 m →
      Leaf d (.uint .u128 m lbl))
    (hd : Shown (.portable ts) .none [] 3 d) (hv : edValue d = x.value third fourth) :
    ∃ (i : List Info) (dl : ED) (t1 t2 t3 t4 t5 t6 t7 t8 t9 : Option String) (o1 o2 o3 o4 o5 o6 o7 o8 o9 : String)
      (i1 i2 i3 i4 i5 i6 i7 i8 : List Info), Leaf dl (.uint .u128 x.fourth lbl) ∧
      d = ⟨.composite [⟨some "nonce", t1, o1, ⟨.uint .u32 x.nonce .nonce, i1⟩⟩, ⟨some "consumers", t2, o2, ⟨.uint .u32 x.consumers .none, i2⟩⟩,
        ⟨some "providers", t3, o3, ⟨.uint .u32 x.providers .none, i3⟩⟩, ⟨some "sufficients", t4, o4, ⟨.uint .u32 x.sufficients .none, i4⟩⟩,
        ⟨some "data", t5, o5, ⟨.composite [⟨some "free", t6, o6, ⟨.uint .u128 x.free .balance, i6⟩⟩,
          ⟨some "reserved", t7, o7, ⟨.uint .u128 x.reserved .balance, i7⟩⟩, ⟨some third, t8, o8, ⟨.uint .u128 x.third .balance, i8⟩⟩,
          ⟨some fourth, t9, o9, dl⟩], i5⟩⟩], i⟩ := by
  obtain ⟨ds, e, hlen, hn, hs⟩ := record_shown h3 hp3 hd
  rw [edValue_of e, pdValue] at hv
  obtain ⟨⟨fn1, t1, o1, ⟨d1, i1⟩⟩, ⟨fn2, t2, o2, ⟨d2, i2⟩⟩, ⟨fn3, t3, o3, ⟨d3, i3⟩⟩, ⟨fn4, t4, o4, ⟨d4, i4⟩⟩, ⟨fn5, t5, o5, d5⟩, rfl⟩ :=
    list5 hlen
  simp only [List.zip_cons_cons, List.zip_nil_right, List.forall_mem_cons, List.not_mem_nil, false_implies, implies_true, and_true] at hn hs
  obtain ⟨rfl, rfl, rfl, rfl, rfl⟩ := hn
  unfold AccountInfo.value at hv
  have hv := Value.record.inj hv
  simp only [fdsValue_cons, fdsValue_nil, List.cons.injEq, Prod.mk.injEq, true_and, and_true] at hv
  obtain ⟨v1, v2, v3, v4, v5⟩ := hv
  obtain ⟨s1, s2, s3, s4, s5⟩ := hs
  have e1 := uint_shown h4 .u32 s1 v1
  have e2 := uint_shown h4 .u32 s2 v2
  have e3 := uint_shown h4 .u32 s3 v3
  have e4 := uint_shown h4 .u32 s4 v4
  rw [show fieldLabel (Field.mk (some "data") 5 (some "AccountData") []) = .none from by decide] at s5
  obtain ⟨ds, e', hlen, hn, hs⟩ := record_shown h5 hp5 s5
  rw [edValue_of e', pdValue] at v5
  obtain ⟨⟨fn6, t6, o6, ⟨d6, i6⟩⟩, ⟨fn7, t7, o7, ⟨d7, i7⟩⟩, ⟨fn8, t8, o8, ⟨d8, i8⟩⟩, ⟨fn9, t9, o9, d9⟩, rfl⟩ := list4 hlen
  simp only [List.zip_cons_cons, List.zip_nil_right, List.forall_mem_cons, List.not_mem_nil, false_implies, implies_true, and_true] at hn hs
  obtain ⟨rfl, rfl, rfl, rfl⟩ := hn
  have v5 := Value.record.inj v5
  simp only [fdsValue_cons, fdsValue_nil, List.cons.injEq, Prod.mk.injEq, true_and, and_true] at v5
  obtain ⟨v6, v7, v8, v9⟩ := v5
  obtain ⟨s6, s7, s8, s9⟩ := hs
  have e6 := uint_shown h6 .u128 s6 v6
  have e7 := uint_shown h6 .u128 s7 v7
  have e8 := uint_shown h6 .u128 s8 v8
  rw [ht] at e8
  obtain ⟨data, i⟩ := d
  obtain ⟨d5, i5⟩ := d5
  dsimp only at e e' e1 e2 e3 e4 e6 e7 e8
  rw [show uintLabel (fieldLabel ⟨some "nonce", 4, n, []⟩) = .nonce from rfl] at e1
  subst e e' e1 e2 e3 e4 e6 e7 e8
  exact ⟨i, d9, t1, t2, t3, t4, t5, t6, t7, t8, t9, o1, o2, o3, o4, o5, o6, o7, o8, o9, i1, i2, i3, i4, i5, i6, i7, i8, hl _ _ s9 v9, rfl⟩

theorem label_line {k : Nat} {label text line : String} (h : indentation k ++ label ++ ": " = line) : readable k label text = line ++ text := by
  subst h; rfl

theorem balance_line (display : Bool) (n : Nat) (i : List InfoFlat) :
    ExtendedCard.show showBits ⟨specialtyCard .u128 n .balance display specs name, 4, i⟩ = balanceLine specs display n := by
  unfold specialtyCard balanceLine
  cases display
  · simp only [Bool.false_eq_true, if_false, ExtendedCard.show, ParserCard.line]
    exact label_line (by decide)
  · simp only [if_true, ExtendedCard.show, ParserCard.line]
    rw [label_line (line := "        Balance: ") (by decide)]
    rfl

theorem nonce_line (display : Bool) (n : Nat) (i : List InfoFlat) :
    ExtendedCard.show showBits ⟨specialtyCard .u32 n .nonce display specs name, 2, i⟩ = "    Nonce: " ++ toString n :=
  label_line (k := 2) (label := "Nonce") (by decide)

theorem u32_line (display : Bool) (n : Nat) (i : List InfoFlat) :
    ExtendedCard.show showBits ⟨specialtyCard .u32 n .none display specs name, 2, i⟩ = "    u32: " ++ toString n :=
  label_line (k := 2) (label := "u32") (by decide)

theorem field_line (k : Nat) (s : String) (i : List InfoFlat) :
    ExtendedCard.show showBits ⟨.fieldName s, k, i⟩ = indentation k ++ "Field Name" ++ ": " ++ s := rfl

theorem struct_line (k n : Nat) (i : List InfoFlat) :
    ExtendedCard.show showBits ⟨.compositeAnnounced n, k, i⟩ = indentation k ++ "Struct" ++ ": " ++ (toString n ++ " field(s)") := rfl

theorem account_lines {t1 t2 t3 t4 t5 t6 t7 t8 t9 : Option String} {o1 o2 o3 o4 o5 o6 o7 o8 o9 : String}
    {i i1 i2 i3 i4 i5 i6 i7 i8 : List Info} {dl : ED} {lbl : SpecUInt} {display : Bool} {line : String}
    (hl : Leaf dl (.uint .u128 x.fourth lbl))
    (hline : ∀ i, ExtendedCard.show showBits ⟨specialtyCard .u128 x.fourth lbl display specs name, 4, i⟩ = line)
    (hd : d = ⟨.composite [⟨some "nonce", t1, o1, ⟨.uint .u32 x.nonce .nonce, i1⟩⟩, ⟨some "consumers", t2, o2, ⟨.uint .u32 x.consumers .none, i2⟩⟩,
        ⟨some "providers", t3, o3, ⟨.uint .u32 x.providers .none, i3⟩⟩, ⟨some "sufficients", t4, o4, ⟨.uint .u32 x.sufficients .none, i4⟩⟩,
        ⟨some "data", t5, o5, ⟨.composite [⟨some "free", t6, o6, ⟨.uint .u128 x.free .balance, i6⟩⟩,
          ⟨some "reserved", t7, o7, ⟨.uint .u128 x.reserved .balance, i7⟩⟩, ⟨some third, t8, o8, ⟨.uint .u128 x.third .balance, i8⟩⟩,
          ⟨some fourth, t9, o9, dl⟩], i5⟩⟩], i⟩) :
    screen showBits (d.card P specs name 0 display) = accountScreen specs display third fourth line x := by
  subst hd
  obtain ⟨j, hc⟩ := leaf_card (P := P) (specs := specs) (name := name) hl 4 display
  have hc : dl.card P specs name (0 + 1 + 1 + 1 + 1) display = _ := hc
  simp only [ED.card, PD.card, List.isEmpty_cons, Bool.false_eq_true, if_false, singleUnnamed, cardFieldSet, FD.cardInSet, hc, List.append_nil,
    List.cons_append, List.nil_append, screen, List.map_cons, List.map_nil, balance_line, hline, accountScreen, Nat.zero_add, Nat.reduceAdd,
    nonce_line, u32_line, field_line, struct_line, List.length_cons, List.length_nil]
  rw [show indentation 3 ++ "Field Name" ++ ": " = "      Field Name: " from by decide]
  rfl

end Verif.Layout
