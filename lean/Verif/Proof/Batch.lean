import Verif.Proof.Screen
import Verif.Spec.Batch
import Verif.Spec.Canonical
/-!
# Batches of transfers: bytes, values and lines
-/
namespace Verif.Westend
open Spec Spec.Westend

/-! ### Bytes -/

/-- The variant of the pallet `Balances` among the calls. -/
def balancesVariant : Variant :=
  ⟨"Balances", [⟨none, 179, some "self::sp_api_hidden_includes_construct_runtime::hidden_include::dispatch\n::CallableCallFor<Balances, Runtime>", []⟩], 4, []⟩
/-- The variant of the pallet `Utility` among the calls. -/
def utilityVariant : Variant :=
  ⟨"Utility", [⟨none, 265, some "self::sp_api_hidden_includes_construct_runtime::hidden_include::dispatch\n::CallableCallFor<Utility, Runtime>", []⟩], 16, []⟩

theorem balances_variant : variantOf 267 "Balances" = some balancesVariant := by decide +kernel
theorem utility_variant : variantOf 267 "Utility" = some utilityVariant := by decide +kernel

/-- The fields of a payment. -/
def payFields : List Field := [⟨some "dest", 180, some "<T::Lookup as StaticLookup>::Source", []⟩, ⟨some "value", 46, some "T::Balance", []⟩]
/-- The fields of a batch. -/
def batchFields : List Field := [⟨some "calls", 266, some "Vec<<T as Config>::Call>", []⟩]
/-- The fields of a call from a derived account. -/
def derivedFields : List Field := [⟨some "index", 61, some "u16", []⟩, ⟨some "call", 267, some "Box<<T as Config>::Call>", []⟩]

theorem pay_variant (keepAlive : Bool) (account : Bytes) (amount : Nat) : variantOf 179 (Order.pay keepAlive account amount).name =
    some ⟨(Order.pay keepAlive account amount).name, payFields, if keepAlive then 3 else 0, []⟩ := by
  cases keepAlive
  · show variantOf 179 "transfer" = some ⟨"transfer", payFields, 0, []⟩; decide +kernel
  · show variantOf 179 "transfer_keep_alive" = some ⟨"transfer_keep_alive", payFields, 3, []⟩; decide +kernel
theorem batch_variant (all : Bool) (os : List Order) : variantOf 265 (Order.batch all os).name =
    some ⟨(Order.batch all os).name, batchFields, if all then 2 else 0, []⟩ := by
  cases all
  · show variantOf 265 "batch" = some ⟨"batch", batchFields, 0, []⟩; decide +kernel
  · show variantOf 265 "batch_all" = some ⟨"batch_all", batchFields, 2, []⟩; decide +kernel
theorem derived_variant : variantOf 265 "as_derivative" = some ⟨"as_derivative", derivedFields, 1, []⟩ := by decide +kernel

theorem calls267 : isCalls 267 = true := by decide +kernel
theorem calls179 : isCalls 179 = true := by decide +kernel
theorem calls265 : isCalls 265 = true := by decide +kernel

theorem u16_iff {v : Value} {bs : Bytes} : Enc registry false 61 v bs ↔ ∃ n, n < 2 ^ 16 ∧ v = .uint .u16 n ∧ bs = leBytes 2 n := by
  rw [primitive_iff (path := []) (p := .u16) (by decide +kernel) (by decide)]
  constructor
  · intro h
    cases h with
    | uint h1 h2 => cases h1; exact ⟨_, h2, rfl, rfl⟩
    | int h1 => cases h1
  · rintro ⟨n, h, rfl, rfl⟩
    exact .uint (w := .u16) .u16 h

theorem known267 : Known registry 267 := by
  obtain ⟨t, vs, hr, -⟩ := variantOf_some balances_variant
  have hp : special t.path = some (.pallet .call) := by
    have := calls267
    unfold isCalls at this
    rw [portable_get hr] at this
    simpa using this
  exact ⟨_, _, _, _, .stop hr (fun h => by rw [hp] at h; cases h)⟩

theorem vec_iff {v : Value} {bs : Bytes} : Enc registry false 266 v bs ↔ ∃ ps : Parts, ps.length < 2 ^ 32 ∧
    (∀ x ∈ ps, Enc registry false 267 x.1 x.2) ∧ v = .seq ps.values ∧ bs = compactEncode ps.length ++ ps.bytes := by
  obtain ⟨t, hr, hp, hd⟩ := has_type (id := 266) (path := []) (d := .sequence 267) (by decide +kernel)
  rw [enc_as hr, encAs_structural (by rw [hp]; exact Wallet'.structural_iff.1 (by decide))]
  unfold EncDef
  rw [hd]
  constructor
  · rintro ⟨-, -, h⟩; exact h
  · exact fun h => ⟨rfl, known267, h⟩

theorem callEnc_iff {c : CallOf} {bs : Bytes} :
    CallEnc registry 267 c bs ↔ Enc registry false 267 (.pallet .call c.pallet c.call c.args) bs := by
  constructor
  · exact fun h => h.2
  · obtain ⟨t, vs, hr, hd, -⟩ := variantOf_some balances_variant
    exact fun h => ⟨⟨t, vs, hr, hd⟩, h⟩

theorem ordersValues_length : ∀ l : List Order, (ordersValues l).length = l.length
  | [] => by rw [ordersValues]; rfl
  | o :: os => by rw [ordersValues, List.length_cons, List.length_cons, ordersValues_length os]

mutual
theorem order_iff : ∀ (o : Order) (bs : Bytes),
    Enc registry false 267 (.pallet .call o.pallet o.name o.args) bs ↔ o.Valid ∧ bs = o.bytes
  | .pay keepAlive account amount, bs => by
    rw [← callEnc_iff (c := ⟨_, _, _⟩)]
    rw [show (Order.pay keepAlive account amount).pallet = "Balances" from rfl, call_iff (p := balancesVariant) (w := ⟨_, payFields, if keepAlive then 3 else 0, []⟩) balances_variant rfl
      (pay_variant keepAlive account amount) calls267 calls179, Order.args, Order.Valid, Order.bytes]
    constructor
    · rintro ⟨ps, hl, he, ha, rfl⟩
      obtain ⟨⟨v, b⟩, ⟨v', b'⟩, rfl⟩ := list2 hl
      simp only [payFields, Parts.named, Parts.values, List.map_cons, List.map_nil, List.zip_cons_cons, List.zip_nil_right, List.cons.injEq,
        Prod.mk.injEq, true_and, and_true] at ha
      obtain ⟨rfl, rfl⟩ := ha
      have e1 : Enc registry false 180 (.variant "Id" [(none, .fixed .id account)]) b := he (180, _, b) (by simp [payFields])
      have e2 : Enc registry false 46 (.uint .u128 amount) b' := he (46, _, b') (by simp [payFields])
      obtain ⟨a, h1, h2, rfl⟩ := address_iff.1 e1
      obtain ⟨n, h3, h4, rfl⟩ := balance_iff.1 e2
      cases h2
      cases h4
      exact ⟨⟨h1, h3⟩, by simp [balancesVariant, Parts.bytes]⟩
    · rintro ⟨⟨h1, h2⟩, rfl⟩
      refine ⟨[(.variant "Id" [(none, .fixed .id account)], 0 :: account), (.uint .u128 amount, compactEncode amount)], rfl, ?_, rfl,
        by simp [balancesVariant, Parts.bytes]⟩
      simp only [payFields, List.map_cons, List.map_nil, List.zip_cons_cons, List.zip_nil_right, List.forall_mem_cons, List.not_mem_nil,
        false_implies, implies_true, and_true, balance_iff, address_iff]
      exact ⟨⟨_, h1, rfl, rfl⟩, ⟨_, h2, rfl, rfl⟩⟩
  | .batch all orders, bs => by
    rw [← callEnc_iff (c := ⟨_, _, _⟩)]
    rw [show (Order.batch all orders).pallet = "Utility" from rfl, call_iff (p := utilityVariant) (w := ⟨_, batchFields, if all then 2 else 0, []⟩) utility_variant rfl
      (batch_variant all orders) calls267 calls265, Order.args, Order.Valid, Order.bytes]
    constructor
    · rintro ⟨ps, hl, he, ha, rfl⟩
      obtain ⟨⟨v, b⟩, rfl⟩ := list1 hl
      simp only [batchFields, Parts.named, Parts.values, List.map_cons, List.map_nil, List.zip_cons_cons, List.zip_nil_right, List.cons.injEq,
        Prod.mk.injEq, true_and, and_true] at ha
      obtain rfl := ha
      have e1 : Enc registry false 266 (.seq (ordersValues orders)) b := he (266, _, b) (by simp [batchFields])
      obtain ⟨ps, h1, h2, h3, rfl⟩ := vec_iff.1 e1
      injection h3 with h3
      have hlen : ps.length = orders.length := by
        rw [← ordersValues_length orders, h3, Parts.values, List.length_map]
      obtain ⟨h4, h5⟩ := (orders_iff orders ps.bytes).1 ⟨ps, h3.symm, h2, rfl⟩
      exact ⟨⟨hlen ▸ h1, h4⟩, by rw [← h5, ← hlen]; simp [utilityVariant, Parts.bytes]⟩
    · rintro ⟨⟨h1, h2⟩, rfl⟩
      obtain ⟨ps, h3, h4, h5⟩ := (orders_iff orders _).2 ⟨h2, rfl⟩
      have hlen : ps.length = orders.length := by
        rw [← ordersValues_length orders, ← h3, Parts.values, List.length_map]
      refine ⟨[(.seq (ordersValues orders), compactEncode ps.length ++ ps.bytes)], rfl, ?_, rfl, ?_⟩
      · simp only [batchFields, List.map_cons, List.map_nil, List.zip_cons_cons, List.zip_nil_right, List.forall_mem_cons, List.not_mem_nil,
          false_implies, implies_true, and_true, vec_iff]
        exact ⟨ps, hlen ▸ h1, h4, by rw [h3], rfl⟩
      · rw [h5, hlen]; simp [utilityVariant, Parts.bytes]
  | .derived number order, bs => by
    rw [← callEnc_iff (c := ⟨_, _, _⟩)]
    rw [show (Order.derived number order).pallet = "Utility" from rfl,
      show (Order.derived number order).name = "as_derivative" from rfl, call_iff (p := utilityVariant) (w := ⟨_, derivedFields, 1, []⟩) utility_variant rfl
      derived_variant calls267 calls265, Order.args, Order.Valid, Order.bytes]
    constructor
    · rintro ⟨ps, hl, he, ha, rfl⟩
      obtain ⟨⟨v, b⟩, ⟨v', b'⟩, rfl⟩ := list2 hl
      simp only [derivedFields, Parts.named, Parts.values, List.map_cons, List.map_nil, List.zip_cons_cons, List.zip_nil_right, List.cons.injEq,
        Prod.mk.injEq, true_and, and_true] at ha
      obtain ⟨rfl, rfl⟩ := ha
      have e1 : Enc registry false 61 (.uint .u16 number) b := he (61, _, b) (by simp [derivedFields])
      have e2 : Enc registry false 267 (.pallet .call order.pallet order.name order.args) b' := he (267, _, b') (by simp [derivedFields])
      obtain ⟨n, h1, h2, rfl⟩ := u16_iff.1 e1
      cases h2
      obtain ⟨h3, rfl⟩ := (order_iff order b').1 e2
      exact ⟨⟨h1, h3⟩, by simp [utilityVariant, Parts.bytes]⟩
    · rintro ⟨⟨h1, h2⟩, rfl⟩
      refine ⟨[(.uint .u16 number, leBytes 2 number), (.pallet .call order.pallet order.name order.args, order.bytes)], rfl, ?_, rfl,
        by simp [utilityVariant, Parts.bytes]⟩
      simp only [derivedFields, List.map_cons, List.map_nil, List.zip_cons_cons, List.zip_nil_right, List.forall_mem_cons, List.not_mem_nil,
        false_implies, implies_true, and_true, u16_iff]
      exact ⟨⟨_, h1, rfl, rfl⟩, (order_iff order _).2 ⟨h2, rfl⟩⟩

theorem orders_iff : ∀ (os : List Order) (bs : Bytes),
    (∃ ps : Parts, ps.values = ordersValues os ∧ (∀ x ∈ ps, Enc registry false 267 x.1 x.2) ∧ ps.bytes = bs) ↔ AllValid os ∧ bs = ordersBytes os
  | [], bs => by
    rw [ordersValues, AllValid, ordersBytes]
    constructor
    · rintro ⟨ps, h1, -, rfl⟩
      have : ps = [] := by simpa [Parts.values] using h1
      subst this
      exact ⟨trivial, rfl⟩
    · rintro ⟨-, rfl⟩
      exact ⟨[], rfl, by simp, rfl⟩
  | o :: os, bs => by
    rw [ordersValues, AllValid, ordersBytes]
    constructor
    · rintro ⟨ps, h1, h2, rfl⟩
      match ps, h1, h2 with
      | (v, b) :: ps, h1, h2 =>
        simp only [Parts.values, List.map_cons, List.cons.injEq] at h1
        obtain ⟨rfl, h1⟩ := h1
        obtain ⟨h3, rfl⟩ := (order_iff o b).1 (h2 (_, b) (by simp))
        obtain ⟨h4, h5⟩ := (orders_iff os (Parts.bytes ps)).1 ⟨ps, h1, fun x hx => h2 x (by simp [hx]), rfl⟩
        exact ⟨⟨h3, h4⟩, by rw [← h5]; simp [Parts.bytes]⟩
    · rintro ⟨⟨h1, h2⟩, rfl⟩
      obtain ⟨ps, h3, h4, h5⟩ := (orders_iff os _).2 ⟨h2, rfl⟩
      refine ⟨(.pallet .call o.pallet o.name o.args, o.bytes) :: ps, ?_, ?_, ?_⟩
      · simp only [Parts.values, List.map_cons] at h3 ⊢
        rw [h3]
      · rw [List.forall_mem_cons]
        exact ⟨(order_iff o _).2 ⟨h1, rfl⟩, h4⟩
      · simp only [Parts.bytes, List.flatMap_cons] at h5 ⊢
        rw [h5]
end

mutual
theorem order_firm : ∀ o : Order, ∀ f ∈ o.args, Firm f.2
  | .pay _ account amount => by
    rw [Order.args]
    simp only [List.forall_mem_cons, List.not_mem_nil, false_implies, implies_true, and_true]
    exact ⟨.variant (by simp; exact .fixed _ _), .uint _ _⟩
  | .batch _ orders => by
    rw [Order.args]
    simp only [List.forall_mem_cons, List.not_mem_nil, false_implies, implies_true, and_true]
    exact .seq (orders_firm orders)
  | .derived _ order => by
    rw [Order.args]
    simp only [List.forall_mem_cons, List.not_mem_nil, false_implies, implies_true, and_true]
    exact ⟨.uint _ _, .pallet (order_firm order)⟩
theorem orders_firm : ∀ os : List Order, ∀ v ∈ ordersValues os, Firm v
  | [] => by rw [ordersValues]; simp
  | o :: os => by
    rw [ordersValues, List.forall_mem_cons]
    exact ⟨.pallet (order_firm o), orders_firm os⟩
end

/-! ### Lines -/

variable {h : Hint} {is : List Info} {d : ED} {P : Printers} {specs : ShortSpecs} {name : String}
  {showBits : BitStore → BitOrder → List Bool → String}

theorem pallet_shown {pallet call : String} {p w : Variant} {f : Field} {args : List (Option String × Value)}
    (hp : variantOf 267 pallet = some p) (hf : p.fields = [f]) (hw : variantOf f.ty call = some w)
    (hs : Shown registry h is 267 d) (hv : edValue d = .pallet .call pallet call args) :
    ∃ (info : Info) (docs : String) (ds : List FD), d.data = .pallet .call info docs pallet call ds ∧ ds.length = w.fields.length ∧
      (∀ x ∈ w.fields.zip ds, x.2.fieldName = x.1.name) ∧
      (∀ x ∈ w.fields.zip ds, Shown registry (fieldLabel x.1) [] x.1.ty x.2.data) ∧ fdsValue ds = args := by
  obtain ⟨t, vs, hr, hd, hm, hn⟩ := variantOf_some hp
  have hsp : special t.path = some (.pallet .call) := by
    have := calls267
    unfold isCalls at this
    rw [portable_get hr] at this
    simpa using this
  have hs := (shownAs_structural (by unfold Structural; rw [hsp]; trivial)).1 (shown_as hr hs)
  unfold ShownDef at hs
  rw [hd] at hs
  rcases hs with e | ⟨v, docs, ds, h1, e, -⟩ | ⟨_, bs, e⟩ | ⟨t', inner, w', v, f', item, docs, info', ds, h1, h2, h3, h4, h5, e, h6, h7, h8⟩
  · rw [edValue_of e] at hv; cases hv
  · rw [edValue_of e] at hv; cases hv
  · rw [edValue_of e] at hv; cases hv
  · rw [edValue_of e, pdValue] at hv
    injection hv with e1 e2 e3 e4
    obtain rfl := variantOf_only hp hr hd h1 e2
    rw [hf] at h2
    cases h2
    obtain rfl := variantOf_only hw h3 h4 h5 e3
    refine ⟨info', docs, ds, ?_, h6, h7, h8, e4⟩
    rw [e, e1, e2, e3]

theorem line_readable (n : Nat) (label text : String) : readable n label text = line n (label ++ ": " ++ text) := by
  unfold readable line indentation
  simp only [String.append_assoc]

theorem screen_cons (c : ExtendedCard) (l : List ExtendedCard) : screen showBits (c :: l) = c.show showBits :: screen showBits l := rfl

theorem line_plain (n : Nat) (label : String) : indentation n ++ label = line n label := rfl

theorem u16_shown {n : Nat} (hd : Shown registry h is 61 d) (hv : edValue d = .uint .u16 n) : d.data = .uint .u16 n (uintLabel h) :=
  uint_shown (by decide +kernel) .u16 hd hv

theorem vec_shown {l : List Value} (hd : Shown registry h is 266 d) (hv : edValue d = .seq l)
    (hl : ∀ v ∈ l, ∃ p n args, v = .pallet .call p n args) :
    ∃ (is' : List Info) (es : List ED), d.data = .sequenceRaw is' (es.map (·.data)) ∧ (∀ e ∈ es, Shown registry .none [] 267 e) ∧
      es.map edValue = l := by
  obtain ⟨t, -, e, hd⟩ := shown_has (id := 266) (path := []) (def' := .sequence 267) (by decide +kernel) (by decide) hd
  unfold ShownDef at hd
  rw [e] at hd
  obtain ⟨h', is', core, es, hp, hes, hd⟩ := hd
  have hsp : ∀ t, registry.resolve 267 = .ok t → special t.path = some (.pallet .call) := by
    intro t hr
    have := calls267
    unfold isCalls at this
    rw [portable_get hr] at this
    simpa using this
  have hc : h' = .none ∧ core = 267 := by
    cases hp with
    | stop h1 _ => exact ⟨rfl, rfl⟩
    | struct h1 h2 => rw [hsp _ h1] at h2; cases h2
    | compact h1 h2 => rw [hsp _ h1] at h2; cases h2
  obtain ⟨rfl, rfl⟩ := hc
  have hvs : ∀ es : List ED, pdsValue (es.map (·.data)) = es.map edValue := by
    intro es
    induction es with
    | nil => rw [List.map_nil, pdsValue]; rfl
    | cons e es ih => obtain ⟨x, y⟩ := e; rw [List.map_cons, List.map_cons, pdsValue, ih]; rfl
  rcases hd with e | ⟨s, hs, e⟩
  · refine ⟨is', es, e, hes, ?_⟩
    rw [edValue_of e, pdValue, hvs] at hv
    injection hv
  · rw [edValue_of e, pdValue] at hv
    injection hv with hv
    exfalso
    generalize hpds : es.map (·.data) = pds at hs
    cases hs with
    | @uints w us hne =>
      match us, hne with
      | u :: us, _ =>
        obtain ⟨_, _, _, h2⟩ := hl (.uint w u) (by rw [← hv]; simp [sequenceValues])
        cases h2
    | @bytes info us ds h1 h2 h3 =>
      obtain ⟨a, h1⟩ := h1
      match us, h2 with
      | [], h2 => rw [List.length_eq_zero_iff.1 h2] at h1; cases h1
      | u :: us, _ =>
        obtain ⟨_, _, _, h2⟩ := hl (.seq (u.map (Value.uint .u8))) (by rw [← hv]; simp [sequenceValues])
        cases h2

theorem orders_calls : ∀ os : List Order, ∀ v ∈ ordersValues os, ∃ p n args, v = .pallet .call p n args
  | [] => by rw [ordersValues]; simp
  | o :: os => by
    rw [ordersValues, List.forall_mem_cons]
    exact ⟨⟨_, _, _, rfl⟩, orders_calls os⟩

mutual
theorem order_lines : ∀ (o : Order) {d : ED} {h : Hint} {is : List Info}, Shown registry h is 267 d →
    edValue d = .pallet .call o.pallet o.name o.args → ∀ (i : List InfoFlat) (n : Nat) (valid : Bool),
    screen showBits (d.data.card P specs name i n valid) = o.screen specs (fun a => P.base58 .id a specs.base58prefix) n
  | .pay keepAlive account amount, d, h, is, hs, hv, i, n, valid => by
    obtain ⟨info, docs, ds, e, hl, hn, hsh, ha⟩ := pallet_shown (p := balancesVariant)
      (w := ⟨_, payFields, if keepAlive then 3 else 0, []⟩) balances_variant rfl (pay_variant keepAlive account amount) hs hv
    obtain ⟨⟨fn, tn, docs1, ⟨data, i1⟩⟩, ⟨fn', tn', docs2, ⟨data', i2⟩⟩, rfl⟩ := list2 hl
    simp only [payFields, List.zip_cons_cons, List.zip_nil_right, List.forall_mem_cons, List.not_mem_nil, false_implies, implies_true, and_true] at hn hsh
    obtain ⟨rfl, rfl⟩ := hn
    rw [Order.args, fdsValue_two] at ha
    simp only [List.cons.injEq, Prod.mk.injEq, true_and, and_true] at ha
    obtain ⟨a, b, c, g, ea⟩ := address_shown hsh.1 ha.1
    have eb := balance_shown hsh.2 ha.2
    rw [show uintLabel (fieldLabel ⟨some "value", 46, some "T::Balance", []⟩) = .balance from by decide] at eb
    dsimp only at ea eb
    subst ea eb
    rw [e, PD.card, show isBalanceDisplay "Balances" = true from by decide]
    simp only [singleUnnamed, Bool.false_eq_true, if_false, cardFieldSet, FD.cardInSet, ED.card, PD.card, Option.isNone_none, if_true, cardFirstUnnamed,
      FD.cardUnnamed, List.append_nil, List.cons_append, List.nil_append, screen, List.map_cons, List.map_nil, ExtendedCard.show, ParserCard.line,
      specialtyCard, fixedCard, Printers.idData, FixedKind.cardName, line_readable, line_plain]
    rw [Order.screen]
    cases keepAlive <;> rfl
  | .batch all orders, d, h, is, hs, hv, i, n, valid => by
    obtain ⟨info, docs, ds, e, hl, hn, hsh, ha⟩ := pallet_shown (p := utilityVariant)
      (w := ⟨_, batchFields, if all then 2 else 0, []⟩) utility_variant rfl (batch_variant all orders) hs hv
    obtain ⟨⟨fn, tn, docs1, ⟨data, i1⟩⟩, rfl⟩ := list1 hl
    simp only [batchFields, List.zip_cons_cons, List.zip_nil_right, List.forall_mem_cons, List.not_mem_nil, false_implies, implies_true, and_true] at hn hsh
    subst hn
    rw [Order.args, fdsValue_one] at ha
    simp only [List.cons.injEq, Prod.mk.injEq, true_and, and_true] at ha
    obtain ⟨is', es, ee, hes, hvs⟩ := vec_shown hsh ha (orders_calls orders)
    dsimp only at ee
    subst ee
    have hlen : es.length = orders.length := by rw [← ordersValues_length, ← hvs, List.length_map]
    rw [e, PD.card]
    have := orders_lines orders es hes hvs (n + 4) (isBalanceDisplay "Utility")
    simp only [singleUnnamed, Option.isNone_some, Bool.false_eq_true, if_false, cardFieldSet, FD.cardInSet, ED.card, PD.card,
      List.append_nil, List.cons_append, List.nil_append, screen_cons, ExtendedCard.show, ParserCard.line,
      line_readable, line_plain, List.length_map, hlen]
    rw [Order.screen]
    show _ :: _ :: _ :: _ :: screen showBits (cardElements P specs name _ (n + 4) (isBalanceDisplay "Utility")) = _
    rw [this]
    cases all <;> rfl
  | .derived number order, d, h, is, hs, hv, i, n, valid => by
    obtain ⟨info, docs, ds, e, hl, hn, hsh, ha⟩ := pallet_shown (p := utilityVariant)
      (w := ⟨_, derivedFields, 1, []⟩) utility_variant rfl derived_variant hs hv
    obtain ⟨⟨fn, tn, docs1, ⟨data, i1⟩⟩, ⟨fn', tn', docs2, ⟨data', i2⟩⟩, rfl⟩ := list2 hl
    simp only [derivedFields, List.zip_cons_cons, List.zip_nil_right, List.forall_mem_cons, List.not_mem_nil, false_implies, implies_true, and_true] at hn hsh
    obtain ⟨rfl, rfl⟩ := hn
    rw [Order.args, fdsValue_two] at ha
    simp only [List.cons.injEq, Prod.mk.injEq, true_and, and_true] at ha
    have ea := u16_shown hsh.1 ha.1
    rw [show uintLabel (fieldLabel ⟨some "index", 61, some "u16", []⟩) = .none from by decide] at ea
    dsimp only at ea
    subst ea
    have := order_lines order hsh.2 ha.2 (i2.map Info.flatten) (n + 3) (isBalanceDisplay "Utility")
    rw [e, PD.card]
    simp only [singleUnnamed, Bool.false_eq_true, if_false, cardFieldSet, FD.cardInSet, ED.card, PD.card, List.append_nil, List.cons_append,
      List.nil_append, screen_cons, ExtendedCard.show, ParserCard.line, specialtyCard, line_readable, line_plain]
    rw [Order.screen]
    show _ :: _ :: _ :: _ :: _ :: screen showBits (PD.card P specs name _ _ (n + 3) (isBalanceDisplay "Utility")) = _
    rw [this]
    rfl

theorem orders_lines : ∀ (os : List Order) (es : List ED), (∀ e ∈ es, Shown registry .none [] 267 e) → es.map edValue = ordersValues os →
    ∀ (n : Nat) (valid : Bool),
    screen showBits (cardElements P specs name (es.map (·.data)) n valid) = ordersScreen specs (fun a => P.base58 .id a specs.base58prefix) n os
  | [], es, hes, hv, n, valid => by
    rw [ordersValues] at hv
    obtain rfl : es = [] := by simpa using hv
    rw [ordersScreen, List.map_nil, cardElements]
    rfl
  | o :: os, es, hes, hv, n, valid => by
    rw [ordersValues] at hv
    match es, hv, hes with
    | e :: es, hv, hes =>
      rw [List.map_cons] at hv
      injection hv with h1 h2
      rw [List.map_cons, cardElements, screen_append, ordersScreen, order_lines o (hes e (by simp)) h1,
        orders_lines os es (fun x hx => hes x (by simp [hx])) h2]
end

end Verif.Westend
