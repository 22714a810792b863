import Verif.Spec.Canonical
import Verif.Props.Values
/-!
A firm value has one encoding.
-/
namespace Verif
open Spec

variable {R : Registry}

theorem parts_named_unique {fields : List Field} : ∀ {ps ps' : Parts}, ps.length = fields.length →
    ps'.length = fields.length → ps'.named fields = ps.named fields →
    (∀ x ∈ (fields.map (·.ty)).zip ps, ∀ v' bs', Enc R false x.1 v' bs' → v' = x.2.1 → bs' = x.2.2) →
    (∀ x ∈ (fields.map (·.ty)).zip ps', Enc R false x.1 x.2.1 x.2.2) → ps'.bytes = ps.bytes := by
  induction fields with
  | nil =>
    intro ps ps' h1 h2 _ _ _
    have e1 : ps = [] := List.length_eq_zero_iff.1 (by simpa using h1)
    have e2 : ps' = [] := List.length_eq_zero_iff.1 (by simpa using h2)
    rw [e1, e2]
  | cons f fs ih =>
    intro ps ps' h1 h2 h3 h4 h5
    match ps, ps', h1, h2 with
    | p :: ps, p' :: ps', h1, h2 =>
      simp only [Parts.named, Parts.values, List.map_cons, List.zip_cons_cons, List.cons.injEq,
        Prod.mk.injEq, true_and] at h3
      have hh := h4 (f.ty, p) (by simp) p'.1 p'.2 (h5 (f.ty, p') (by simp)) h3.1
      have ht := ih (ps := ps) (ps' := ps') (by simpa using h1) (by simpa using h2) h3.2
        (fun x hx => h4 x (by simp [hx])) (fun x hx => h5 x (by simp [hx]))
      simp only [Parts.bytes, List.flatMap_cons] at ht ⊢
      rw [hh, ht]

theorem parts_tuple_unique {c : Bool} {ids : List Nat} : ∀ {ps ps' : Parts}, ps.length = ids.length →
    ps'.length = ids.length → ps'.values = ps.values →
    (∀ x ∈ ids.zip ps, ∀ v' bs', Enc R c x.1 v' bs' → v' = x.2.1 → bs' = x.2.2) →
    (∀ x ∈ ids.zip ps', Enc R c x.1 x.2.1 x.2.2) → ps'.bytes = ps.bytes := by
  induction ids with
  | nil =>
    intro ps ps' h1 h2 _ _ _
    have e1 : ps = [] := List.length_eq_zero_iff.1 (by simpa using h1)
    have e2 : ps' = [] := List.length_eq_zero_iff.1 (by simpa using h2)
    rw [e1, e2]
  | cons f fs ih =>
    intro ps ps' h1 h2 h3 h4 h5
    match ps, ps', h1, h2 with
    | p :: ps, p' :: ps', h1, h2 =>
      simp only [Parts.values, List.map_cons, List.cons.injEq] at h3
      have hh := h4 (f, p) (by simp) p'.1 p'.2 (h5 (f, p') (by simp)) h3.1
      have ht := ih (ps := ps) (ps' := ps') (by simpa using h1) (by simpa using h2) h3.2
        (fun x hx => h4 x (by simp [hx])) (fun x hx => h5 x (by simp [hx]))
      simp only [Parts.bytes, List.flatMap_cons] at ht ⊢
      rw [hh, ht]

theorem parts_list_unique {elem : Nat} : ∀ {ps ps' : Parts}, ps'.values = ps.values →
    (∀ x ∈ ps, ∀ v' bs', Enc R false elem v' bs' → v' = x.1 → bs' = x.2) →
    (∀ x ∈ ps', Enc R false elem x.1 x.2) → ps'.bytes = ps.bytes ∧ ps'.length = ps.length := by
  intro ps
  induction ps with
  | nil =>
    intro ps' h _ _
    cases ps' with
    | nil => exact ⟨rfl, rfl⟩
    | cons p ps' => simp [Parts.values] at h
  | cons p ps ih =>
    intro ps' h3 h4 h5
    cases ps' with
    | nil => simp [Parts.values] at h3
    | cons p' ps' =>
      simp only [Parts.values, List.map_cons, List.cons.injEq] at h3
      have hh := h4 p (by simp) p'.1 p'.2 (h5 p' (by simp)) h3.1
      have ht := ih (ps' := ps') h3.2 (fun x hx => h4 x (by simp [hx])) (fun x hx => h5 x (by simp [hx]))
      simp only [Parts.bytes, List.flatMap_cons, List.length_cons] at ht ⊢
      exact ⟨by rw [hh, ht.1], by rw [ht.2]⟩

theorem selects_mem {vs : List Variant} {i : UInt8} {v : Variant} (h : Selects vs i v) : v ∈ vs ∧ v.index = i := by
  obtain ⟨a, b, rfl, h, -⟩ := h
  exact ⟨by simp, h⟩

/-- Places cover the element. -/
theorem bitPlace_onto (o : BitOrder) {n j : Nat} (h : j < n) : ∃ i, i < n ∧ bitPlace o n i = j := by
  cases o with
  | lsb0 => exact ⟨j, h, rfl⟩
  | msb0 => exact ⟨n - 1 - j, by omega, by unfold bitPlace; dsimp only; omega⟩

theorem bits_full_unique {s : BitStore} {o : BitOrder} {l : List Bool} {bs bs' : Bytes} (hd : 8 * s.bytes ∣ l.length)
    (h : BitsEnc s o l bs) (h' : BitsEnc s o l bs') : bs' = bs := by
  obtain ⟨els, h1, ⟨h2, h2'⟩, h3, h4, rfl⟩ := h
  obtain ⟨els', g1, ⟨g2, g2'⟩, g3, g4, rfl⟩ := h'
  have hpos : 0 < 8 * s.bytes := by have := s.bytes_pos; omega
  obtain ⟨k, hk⟩ := hd
  generalize 8 * s.bytes = n at *
  have hlen : ∀ m, l.length ≤ m * n → m * n < l.length + n → m = k := by
    intro m a b
    rw [hk] at a b
    have e : m * n = n * m := Nat.mul_comm _ _
    rw [e] at a b
    have a' := Nat.le_of_mul_le_mul_left a hpos
    have b' : n * m < n * (k + 1) := by rw [Nat.mul_add, Nat.mul_one]; exact b
    have b' := Nat.lt_of_mul_lt_mul_left b'
    omega
  have e1 := hlen _ h2 h2'
  have e2 := hlen _ g2 g2'
  have : els' = els := by
    apply List.ext_getElem (by omega)
    intro q hq hq'
    apply Nat.eq_of_testBit_eq
    intro j
    by_cases hj : j < n
    · obtain ⟨i, hi, hpl⟩ := bitPlace_onto o hj
      have hlt : n * q + i < l.length := by
        rw [hk]
        have : n * q + n ≤ n * k := by
          rw [← Nat.mul_succ]
          exact Nat.mul_le_mul_left _ (by omega)
        omega
      have hdiv : (n * q + i) / n = q := by
        rw [Nat.mul_add_div hpos, Nat.div_eq_of_lt hi, Nat.add_zero]
      have hmod : (n * q + i) % n = i := by
        rw [Nat.mul_add_mod, Nat.mod_eq_of_lt hi]
      obtain ⟨e, he, hb⟩ := h4 _ hlt
      obtain ⟨e', he', hb'⟩ := g4 _ hlt
      rw [hdiv] at he he'
      rw [hmod, hpl] at hb hb'
      rw [List.getElem?_eq_getElem hq', Option.some.injEq] at he
      rw [List.getElem?_eq_getElem hq, Option.some.injEq] at he'
      rw [he, he']
      rw [hb] at hb'
      exact (Option.some.inj hb').symm
    · have a1 := h3 _ (List.getElem_mem hq')
      have a2 := g3 _ (List.getElem_mem hq)
      have hp : 2 ^ n ≤ 2 ^ j := Nat.pow_le_pow_right (by omega) (by omega)
      rw [Nat.testBit_lt_two_pow (Nat.lt_of_lt_of_le a1 hp), Nat.testBit_lt_two_pow (Nat.lt_of_lt_of_le a2 hp)]
  rw [this]

theorem isUInt_unique {p : Prim} {w w' : UW} (h : IsUInt p w) (h' : IsUInt p w') : w = w' := by
  cases h <;> cases h' <;> rfl

theorem isInt_unique {p : Prim} {w w' : IW} (h : IsInt p w) (h' : IsInt p w') : w = w' := by
  cases h <;> cases h' <;> rfl

theorem encPrim_unique {c : Bool} {p : Prim} {v v' : Value} {bs bs' : Bytes} (h : EncPrim c p v bs)
    (h' : EncPrim c p v' bs') (hv : v' = v) : bs' = bs := by
  cases h <;> cases h' <;> first | (cases hv; done) | (cases hv; rfl)


theorem resolve_inj {id : Nat} {t t' : Typ} (h : R.resolve id = .ok t) (h' : R.resolve id = .ok t') : t = t' := by
  rw [h] at h'; cases h'; rfl

/-- Parts of one below one: the compact number is determined. -/
theorem per_firm_unique {k : PerKind} {v v' : Nat} (hv : v < 2 ^ (8 * k.inner.bytes)) (hv' : v' < 2 ^ (8 * k.inner.bytes))
    (h : min v k.accuracy < k.accuracy ∨ k = .perU16) (he : min v' k.accuracy = min v k.accuracy) : v' = v := by
  rcases h with h | rfl
  · omega
  · have a : PerKind.perU16.accuracy = 65535 := rfl
    have b : (2 : Nat) ^ (8 * PerKind.perU16.inner.bytes) = 65536 := rfl
    rw [a] at he
    rw [b] at hv hv'
    omega

theorem zip_named_mem {fields : List Field} {ps : Parts} {x : Nat × Value × Bytes}
    (h : x ∈ (fields.map (·.ty)).zip ps) : ∃ n, (n, x.2.1) ∈ ps.named fields := by
  induction fields generalizing ps with
  | nil => simp at h
  | cons f fs ih =>
    cases ps with
    | nil => simp at h
    | cons p ps =>
      simp only [List.map_cons, List.zip_cons_cons, List.mem_cons] at h
      rcases h with rfl | h
      · exact ⟨f.name, by simp [Parts.named, Parts.values]⟩
      · obtain ⟨n, hm⟩ := ih h
        refine ⟨n, ?_⟩
        simp only [Parts.named, Parts.values, List.map_cons, List.zip_cons_cons] at hm ⊢
        exact List.mem_cons_of_mem _ hm

theorem zip_values_mem {ids : List Nat} {ps : Parts} {x : Nat × Value × Bytes}
    (h : x ∈ ids.zip ps) : x.2.1 ∈ ps.values := by
  have := (List.of_mem_zip (a := x.1) (b := x.2) h).2
  exact List.mem_map_of_mem this

/-- Closes the cases where the type is of another form. -/
macro "clash" : tactic => `(tactic| (exfalso; simp_all [Structural, IsSignature, IsPallet]; done))

/-- **A firm value has one encoding.** -/
theorem enc_unique (hn : NamesDistinct R) (hs : SignaturesDistinct R) {c : Bool} {id : Nat} {v : Value} {bs : Bytes}
    (h : Enc R c id v bs) : Firm v → ∀ v' bs', Enc R c id v' bs' → v' = v → bs' = bs := by
  induction h <;> intro hf v' bs' h' hv <;> cases h' <;> first | (cases hv; done) | (clear hn hs hv hf; clash) | skip
  · cases hv; rfl
  · cases hv; rfl
  · cases hv; rfl
  · cases hv; rfl
  · rename_i g1 g2 _ _ _ _ f1 f2 _
    injection hv with e1 e2
    subst e1
    cases hf with
    | per hf => rw [per_firm_unique ‹_› ‹_› hf e2]
  · rename_i r1 s1 d1 _ ih _ _ s2 d2 r2 e
    cases resolve_inj r1 r2
    rw [d1] at d2
    cases d2
    exact ih hf _ _ e hv
  · rename_i r1 s1 d1 _ _ _ s2 d2 l2 _ _ _ _ r2
    cases resolve_inj r1 r2
    rw [d1] at d2
    cases d2
    simp at l2
  · rfl
  · rename_i r1 s1 d1 _ l1 _ ih _ _ _ s2 d2 _ l2 e r2
    cases resolve_inj r1 r2
    rw [d1] at d2
    cases d2
    injection hv with hv
    cases hf with
    | record hf =>
      exact parts_named_unique l1 l2 hv
        (fun x hx => ih x hx (by obtain ⟨n, hm⟩ := zip_named_mem hx; exact hf _ hm)) e
  · rfl
  · rename_i r1 s1 d1 g1 _ _ l1 _ ih _ _ _ _ _ s2 d2 g2 _ _ l2 e r2
    cases resolve_inj r1 r2
    rw [d1] at d2
    cases d2
    injection hv with hv hv'
    cases hn _ _ _ r1 d1 _ (selects_mem g2).1 _ (selects_mem g1).1 hv
    rw [← (selects_mem g1).2, ← (selects_mem g2).2]
    cases hf with
    | variant hf =>
      rw [parts_named_unique l1 l2 hv'
        (fun x hx => ih x hx (by obtain ⟨n, hm⟩ := zip_named_mem hx; exact hf _ hm)) e]
  · rename_i r1 g1 _ _ _ _ _ g2 _ r2
    cases resolve_inj r1 r2
    injection hv with e1 e2
    subst e1 e2
    rw [hs _ _ _ _ _ r1 g1 g2]
  · rename_i r1 p1 g1 l1 _ ih _ _ _ _ _ _ _ _ p2 g2 l2 e r2
    cases resolve_inj r1 r2
    injection hv with q1 q2 q3 hv'
    subst q1 q2
    obtain ⟨_, vs, v, f, t', d1, o1, n1, f1, ri1, _, di1⟩ := p1
    obtain ⟨_, vs2, v2, f2, t2, d2, o2, n2, f2', ri2, _, di2⟩ := p2
    rw [d1] at d2
    cases d2
    cases hn _ _ _ r1 d1 _ (selects_mem o2).1 _ (selects_mem o1).1 (n2.trans n1.symm)
    rw [f1] at f2'
    cases f2'
    cases resolve_inj ri1 ri2
    rw [di1] at di2
    cases di2
    cases hn _ _ _ ri1 di1 _ (selects_mem g2).1 _ (selects_mem g1).1 q3
    rw [← (selects_mem g1).2, ← (selects_mem g2).2, ← (selects_mem o1).2, ← (selects_mem o2).2]
    cases hf with
    | pallet hf =>
      rw [parts_named_unique l1 l2 hv'
        (fun x hx => ih x hx (by obtain ⟨n, hm⟩ := zip_named_mem hx; exact hf _ hm)) e]
  · rename_i r1 s1 d1 _ _ _ ih _ _ _ s2 d2 _ _ e r2
    cases resolve_inj r1 r2
    rw [d1] at d2
    cases d2
    injection hv with hv
    cases hf with
    | seq hf =>
      obtain ⟨a, b⟩ := parts_list_unique hv (fun x hx => ih x hx (hf _ (List.mem_map_of_mem hx))) e
      rw [a, b]
  · rename_i r1 s1 d1 _ _ ih _ _ _ s2 d2 _ e r2
    cases resolve_inj r1 r2
    rw [d1] at d2
    injection d2 with d2 d3
    subst d3
    injection hv with hv
    cases hf with
    | seq hf =>
      exact (parts_list_unique hv (fun x hx => ih x hx (hf _ (List.mem_map_of_mem hx))) e).1
  · rename_i r1 s1 d1 _ l1 _ ih _ _ _ s2 d2 l2 _ e r2
    cases resolve_inj r1 r2
    rw [d1] at d2
    cases d2
    injection hv with hv
    cases hf with
    | tuple hf => exact parts_tuple_unique l1 l2 hv (fun x hx => ih x hx (hf _ (zip_values_mem hx))) e
  · rename_i r1 s1 d1 p1 _ _ s2 d2 r2 p2
    cases resolve_inj r1 r2
    rw [d1] at d2
    cases d2
    exact encPrim_unique p1 p2 hv
  · rename_i r1 s1 d1 _ ih _ _ s2 d2 r2 e
    cases resolve_inj r1 r2
    rw [d1] at d2
    cases d2
    exact ih hf _ _ e hv
  · rename_i b1 _ _ _ _ _ _ _ _ _ _ _ b2
    cases hv
    cases hf with
    | bits hf => exact bits_full_unique hf b1 b2

end Verif
