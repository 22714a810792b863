import Verif.Spec.Device
import Verif.Proof.Complete
import Verif.Proof.Sound
/-! Plain readings of labelled values. -/
namespace Verif
open Spec

variable {R : Registry}

theorem unlabel_typeDef (t : Typ) : (unlabel t).typeDef = t.typeDef := by
  unfold unlabel
  split
  · split <;> rfl
  · rfl

theorem unlabel_of_not_variant {t : Typ} (h : ∀ vs, t.typeDef ≠ .variant vs) : unlabel t = t := by
  unfold unlabel
  split
  · rename_i vs hv; exact absurd hv (h vs)
  · rfl

theorem special_nil : special [] = none := by decide

theorem unlabel_special (t : Typ) : special (unlabel t).path = special t.path ∨
    ((special t.path = some .multiSignature ∨ ∃ i, special t.path = some (.pallet i)) ∧ special (unlabel t).path = none) := by
  unfold unlabel
  split
  · split
    · rename_i h; exact .inr ⟨.inl h, special_nil⟩
    · rename_i i h; exact .inr ⟨.inr ⟨_, h⟩, special_nil⟩
    · exact .inl rfl
  · exact .inl rfl

theorem unlabel_structural {t : Typ} (h : Structural t.path) : Structural (unlabel t).path := by
  unfold Structural at *
  rcases unlabel_special t with he | ⟨_, he⟩
  · rw [he]; exact h
  · rw [he]; trivial

theorem unlabel_fixed {t : Typ} {s : Special} (h : special t.path = some s) (h1 : s ≠ .multiSignature)
    (h2 : ∀ i, s ≠ .pallet i) : special (unlabel t).path = some s := by
  rcases unlabel_special t with he | ⟨he | ⟨i, he⟩, _⟩
  · rw [he]; exact h
  · rw [h] at he; injection he with he; exact absurd he h1
  · rw [h] at he; injection he with he; exact absurd he (h2 i)

theorem unlabel_plain {t : Typ} {vs : List Variant} (hv : t.typeDef = .variant vs) :
    special (unlabel t).path ≠ some .multiSignature ∧ ∀ i, special (unlabel t).path ≠ some (.pallet i) := by
  unfold unlabel
  rw [hv]
  dsimp only
  split
  · simp [special_nil]
  · simp [special_nil]
  · rename_i h1 h2
    exact ⟨fun h => h1 h, fun i h => h2 i h⟩

theorem unlabelled_resolve {id : Nat} {t : Typ} (h : R.resolve id = .ok t) : (unlabelled R).resolve id = .ok (unlabel t) := by
  show (R.resolve id).map unlabel = _
  rw [h]; rfl

theorem unlabelled_core {c c' : Bool} {id coreId k : Nat} {core : Typ} (h : Core R c id c' core coreId k) :
    Core (unlabelled R) c id c' (unlabel core) coreId k := by
  induction h with
  | stop hr hs =>
    refine .stop (unlabelled_resolve hr) (fun h => ?_)
    rw [unlabel_typeDef]
    rename_i t
    rcases unlabel_special t with he | ⟨he, _⟩
    · exact hs (he ▸ h)
    · have hv : unlabel t ≠ t := by
        intro hh; rw [hh] at h; rcases he with he | ⟨i, he⟩ <;> rw [h] at he <;> cases he
      refine ⟨fun f hf => ?_, fun i hi => ?_⟩
      · exact hv (unlabel_of_not_variant (by rw [hf]; intro vs h; cases h))
      · exact hv (unlabel_of_not_variant (by rw [hi]; intro vs h; cases h))
  | @struct c c' id t core f coreId k hr hs hd _ ih =>
    refine .struct (unlabelled_resolve hr) ?_ (by rw [unlabel_typeDef]; exact hd) ih
    rw [unlabel_of_not_variant (by rw [hd]; intro vs h; cases h)]; exact hs
  | @compact c' id t core f coreId k hr hs hd _ ih =>
    refine .compact (unlabelled_resolve hr) ?_ (by rw [unlabel_typeDef]; exact hd) ih
    rw [unlabel_of_not_variant (by rw [hd]; intro vs h; cases h)]; exact hs

theorem unlabelled_known {id : Nat} (h : Known R id) : Known (unlabelled R) id := by
  obtain ⟨c', core, coreId, k, h⟩ := h
  exact ⟨_, _, _, _, unlabelled_core h⟩

theorem unlabelled_back {id : Nat} {t : Typ} (h : (unlabelled R).resolve id = .ok t) :
    ∃ t0, R.resolve id = .ok t0 ∧ t = unlabel t0 := by
  change (R.resolve id).map unlabel = _ at h
  cases hr : R.resolve id with
  | ok t0 => rw [hr] at h; injection h with h; exact ⟨t0, rfl, h.symm⟩
  | error e => rw [hr] at h; cases h

/-- A type with parts keeps its path. -/
theorem unlabel_parts {t : Typ} {i : Nat} (h : i ∈ TypeDef.directIds t.typeDef) : unlabel t = t :=
  unlabel_of_not_variant (by intro vs hv; rw [hv] at h; cases h)

theorem unlabelled_grounded {id : Nat} (h : Grounded (unlabelled R) id) : Grounded R id := by
  induction h with
  | mk _ ih =>
    refine .mk (fun t ht hs i hi => ih (unlabel t) (unlabelled_resolve ht) ?_ i ?_) <;> rw [unlabel_parts hi]
    · exact hs
    · exact hi

theorem grounded_unlabelled {id : Nat} (h : Grounded R id) : Grounded (unlabelled R) id := by
  induction h with
  | mk _ ih =>
    refine .mk (fun t ht hs i hi => ?_)
    obtain ⟨t0, h0, rfl⟩ := unlabelled_back ht
    rw [unlabel_typeDef] at hi
    rw [unlabel_parts hi] at hs
    exact ih t0 h0 hs i hi

theorem unlabelled_emptyArrays (h : EmptyArraysGrounded R) : EmptyArraysGrounded (unlabelled R) := by
  intro id t elem ht hs hd
  obtain ⟨t0, h0, rfl⟩ := unlabelled_back ht
  rw [unlabel_typeDef] at hd
  rw [unlabel_parts (i := elem) (by rw [hd]; simp [TypeDef.directIds])] at hs
  exact grounded_unlabelled (h id t0 elem h0 hs hd)

theorem not_signature_unlabelled {t : Typ} {vs : List Variant} (hv : t.typeDef = .variant vs) (i : UInt8) (k : FixedKind) :
    ¬ IsSignature (unlabelled R) (unlabel t) i k := fun h => (unlabel_plain hv).1 h.1

theorem not_pallet_unlabelled {t : Typ} {vs : List Variant} (hv : t.typeDef = .variant vs) (i : UInt8)
    (item : PalletItem) (n : String) (inner : List Variant) :
    ¬ IsPallet (unlabelled R) (unlabel t) i item n inner := fun h => (unlabel_plain hv).2 item h.1

/-- Plain readings of parts. -/
theorem parts_plain {Q : Nat → Value → Bytes → Prop} : ∀ {ids : List Nat} {ps : Parts}, ps.length = ids.length →
    (∀ x ∈ ids.zip ps, ∃ u, Q x.1 u x.2.2 ∧ Labels u x.2.1) →
    ∃ qs : Parts, qs.length = ids.length ∧ qs.bytes = ps.bytes ∧ (∀ x ∈ ids.zip qs, Q x.1 x.2.1 x.2.2) ∧
      qs.values.length = ps.values.length ∧ ∀ x ∈ qs.values.zip ps.values, Labels x.1 x.2
  | [], [], _, _ => ⟨[], rfl, rfl, by simp, rfl, by simp [Parts.values]⟩
  | id :: ids, p :: ps, hl, h => by
    obtain ⟨u, h1, h2⟩ := h (id, p) (by simp)
    obtain ⟨qs, q1, q2, q3, q4, q5⟩ := parts_plain (ids := ids) (ps := ps) (by simpa using hl)
      (fun x hx => h x (by simp [hx]))
    refine ⟨(u, p.2) :: qs, by simp [q1], ?_, ?_, ?_, ?_⟩
    · simp only [Parts.bytes, List.flatMap_cons] at q2 ⊢; rw [q2]
    · intro x hx
      simp only [List.zip_cons_cons, List.mem_cons] at hx
      rcases hx with rfl | hx
      · exact h1
      · exact q3 x hx
    · simp only [Parts.values, List.map_cons, List.length_cons] at q4 ⊢; omega
    · intro x hx
      simp only [Parts.values, List.map_cons, List.zip_cons_cons, List.mem_cons] at hx
      rcases hx with rfl | hx
      · exact h2
      · exact q5 x hx

theorem elems_plain {Q : Value → Bytes → Prop} {ps : Parts} (h : ∀ x ∈ ps, ∃ u, Q u x.2 ∧ Labels u x.1) :
    ∃ qs : Parts, qs.length = ps.length ∧ qs.bytes = ps.bytes ∧ (∀ x ∈ qs, Q x.1 x.2) ∧
      qs.values.length = ps.values.length ∧ ∀ x ∈ qs.values.zip ps.values, Labels x.1 x.2 := by
  induction ps with
  | nil => exact ⟨[], rfl, rfl, by simp, rfl, by simp [Parts.values]⟩
  | cons p ps ih =>
    obtain ⟨u, h1, h2⟩ := h p (by simp)
    obtain ⟨qs, q1, q2, q3, q4, q5⟩ := ih (fun x hx => h x (by simp [hx]))
    refine ⟨(u, p.2) :: qs, by simp [q1], ?_, ?_, ?_, ?_⟩
    · simp only [Parts.bytes, List.flatMap_cons] at q2 ⊢; rw [q2]
    · intro x hx
      simp only [List.mem_cons] at hx
      rcases hx with rfl | hx
      · exact h1
      · exact q3 x hx
    · simp only [Parts.values, List.map_cons, List.length_cons] at q4 ⊢; omega
    · intro x hx
      simp only [Parts.values, List.map_cons, List.zip_cons_cons, List.mem_cons] at hx
      rcases hx with rfl | hx
      · exact h2
      · exact q5 x hx

/-- Bytes as an array of `u8`. -/
theorem array_u8_enc {id elem : Nat} {t et : Typ} {bs : Bytes} (hr : R.resolve id = .ok t) (hp : t.path = [])
    (hd : t.typeDef = .array bs.length elem) (he : R.resolve elem = .ok et) (hep : et.path = [])
    (hed : et.typeDef = .primitive .u8) :
    Enc R false id (.seq (bs.map fun x => .uint .u8 x.toNat)) bs := by
  have hps : ∀ l : Bytes, (Parts.values (l.map fun x => (Value.uint .u8 x.toNat, [x]))) = l.map fun x => .uint .u8 x.toNat := by
    intro l; simp [Parts.values]
  have hbs : ∀ l : Bytes, (Parts.bytes (l.map fun x => (Value.uint .u8 x.toNat, [x]))) = l := by
    intro l; induction l with
    | nil => rfl
    | cons a l ih => simp only [Parts.bytes, List.map_cons, List.flatMap_cons] at ih ⊢; rw [ih]; rfl
  have hst : Structural ([] : List String) := by unfold Structural; rw [special_nil]; trivial
  have := Enc.array (R := R) (id := id) (t := t) (elem := elem) (ps := bs.map fun x => (Value.uint .u8 x.toNat, [x]))
    hr (hp ▸ hst) (by simpa using hd)
    ⟨_, _, _, _, .stop he (fun _ => (by rw [hed]; exact ⟨nofun, nofun⟩))⟩ (by
      intro x hx
      rw [List.mem_map] at hx
      obtain ⟨a, _, rfl⟩ := hx
      have h8 := EncPrim.uint (p := .u8) (w := .u8) (v := a.toNat) .u8 (by have := a.toNat_lt; simpa [UW.bytes] using this)
      have : leBytes UW.u8.bytes a.toNat = [a] := by
        show [UInt8.ofNat (a.toNat % 256)] = [a]
        rw [Nat.mod_eq_of_lt a.toNat_lt]; simp
      rw [this] at h8
      exact .primitive he (hep ▸ hst) hed h8)
  rw [hps, hbs] at this
  exact this

theorem encLoose_plain (hn : LeavesNameless R) (hc : NoCompactArray R) {c : Bool} {id : Nat} {v : Value} {bs : Bytes}
    (h : EncLoose R c id v bs) : ∃ u, Enc (unlabelled R) c id u bs ∧ Labels u v := by
  induction h with
  | fixed hr hs hl => exact ⟨_, .fixed (unlabelled_resolve hr) (unlabel_fixed hs (by simp) (by simp)) hl, .same⟩
  | hash hr hs hl => exact ⟨_, .hash (unlabelled_resolve hr) (unlabel_fixed hs (by simp) (by simp)) hl, .same⟩
  | era hr hs hl => exact ⟨_, .era (unlabelled_resolve hr) (unlabel_fixed hs (by simp) (by simp)) hl, .same⟩
  | per hr hs hl => exact ⟨_, .per (unlabelled_resolve hr) (unlabel_fixed hs (by simp) (by simp)) hl, .same⟩
  | perCompact hr hs hl => exact ⟨_, .perCompact (unlabelled_resolve hr) (unlabel_fixed hs (by simp) (by simp)) hl, .same⟩
  | newtype hr hs hd _ ih =>
    obtain ⟨u, h1, h2⟩ := ih
    exact ⟨u, .newtype (unlabelled_resolve hr) (unlabel_structural hs) (by rw [unlabel_typeDef]; exact hd) h1, h2⟩
  | unit hr hs hd => exact ⟨_, .unit (unlabelled_resolve hr) (unlabel_structural hs) (by rw [unlabel_typeDef]; exact hd), .same⟩
  | record hr hs hd h2 hl _ ih =>
    obtain ⟨qs, q1, q2, q3, q4, q5⟩ := parts_plain (by simpa using hl) ih
    refine ⟨_, q2 ▸ .record (unlabelled_resolve hr) (unlabel_structural hs) (by rw [unlabel_typeDef]; exact hd) h2
      (by simpa using q1) q3, .record q4 q5⟩
  | never hr hs hd => exact ⟨_, .never (unlabelled_resolve hr) (unlabel_structural hs) (by rw [unlabel_typeDef]; exact hd), .same⟩
  | variant hr hs hd hsel hl _ ih =>
    obtain ⟨qs, q1, q2, q3, q4, q5⟩ := parts_plain (by simpa using hl) ih
    refine ⟨_, q2 ▸ .variant (unlabelled_resolve hr) (unlabel_structural hs) (by rw [unlabel_typeDef]; exact hd) hsel
      (not_signature_unlabelled hd _) (not_pallet_unlabelled hd _) (by simpa using q1) q3, .variant q4 q5⟩
  | @signature id t i k bs hr hs hl =>
    obtain ⟨hsp, vs, v, f, hd, hsel, hf, _, c', core, coreId, j, elem, elemTy, hcore, hcd, he, hed⟩ := hs
    obtain ⟨hcr, hpath⟩ : R.resolve coreId = .ok core ∧ core.path = [] := by
      have hcr := hcore.resolve_core
      exact ⟨hcr, hn.1 _ _ _ _ hcr hcd⟩
    have hc' : c' = false := by
      cases c' with
      | false => rfl
      | true => exact absurd hcd (hc _ _ _ _ _ _ hcore)
    subst hc'
    have hu : unlabel core = core := unlabel_of_not_variant (by rw [hcd]; intro vs h; cases h)
    have hue : unlabel elemTy = elemTy := unlabel_of_not_variant (by rw [hed]; intro vs h; cases h)
    have ha := array_u8_enc (R := unlabelled R) (bs := bs) (unlabelled_resolve hcr) (hu.symm ▸ hpath)
      (by rw [hu, hl]; exact hcd) (unlabelled_resolve he) (hue.symm ▸ hn.2 _ _ _ he hed) (by rw [hue]; exact hed)
    have hfe := (unlabelled_core hcore).enc ha
    have hst : Structural t.path := by unfold Structural; rw [hsp]; trivial
    have := Enc.variant (R := unlabelled R) (ps := [(_, bs)]) (unlabelled_resolve hr) (unlabel_structural hst)
      (by rw [unlabel_typeDef]; exact hd) hsel
      (not_signature_unlabelled hd _) (not_pallet_unlabelled hd _) (by rw [hf]; rfl)
      (by
        rw [hf]
        intro x hx
        simp only [List.map_cons, List.map_nil, List.zip_cons_cons, List.zip_nil_right, List.mem_singleton] at hx
        subst hx
        exact hfe)
    have hb : Parts.bytes [(Value.seq (bs.map fun x => .uint .u8 x.toNat), bs)] = bs := by simp [Parts.bytes]
    rw [hb] at this
    refine ⟨_, this, ?_⟩
    rw [hf]
    exact .signature hl
  | @pallet id t inner v i j item name ps hr hp hsel hl _ ih =>
    obtain ⟨hsp, vs, w, f, t', hd, hselw, hname, hf, hr', hsp', hd'⟩ := hp
    obtain ⟨qs, q1, q2, q3, q4, q5⟩ := parts_plain (by simpa using hl) ih
    have hst : Structural t.path := by unfold Structural; rw [hsp]; trivial
    have hst' : Structural t'.path := by unfold Structural; rw [hsp']; trivial
    have hin := Enc.variant (R := unlabelled R) (ps := qs) (unlabelled_resolve hr') (unlabel_structural hst')
      (by rw [unlabel_typeDef]; exact hd') hsel
      (not_signature_unlabelled hd' _) (not_pallet_unlabelled hd' _) (by simpa using q1) q3
    have := Enc.variant (R := unlabelled R) (ps := [(_, j :: qs.bytes)]) (unlabelled_resolve hr) (unlabel_structural hst)
      (by rw [unlabel_typeDef]; exact hd) hselw
      (not_signature_unlabelled hd _) (not_pallet_unlabelled hd _) (by rw [hf]; rfl)
      (by
        rw [hf]
        intro x hx
        simp only [List.map_cons, List.map_nil, List.zip_cons_cons, List.zip_nil_right, List.mem_singleton] at hx
        subst hx
        exact hin)
    have hb : ∀ u : Value, Parts.bytes [(u, j :: qs.bytes)] = j :: ps.bytes := by
      intro u; simp [Parts.bytes] at q2 ⊢; exact q2
    rw [hb] at this
    refine ⟨_, this, ?_⟩
    rw [hf, hname]
    exact .pallet q4 q5
  | sequence hr hs hd hkn h32 _ ih =>
    obtain ⟨qs, q1, q2, q3, q4, q5⟩ := elems_plain ih
    exact ⟨_, q1 ▸ q2 ▸ .sequence (unlabelled_resolve hr) (unlabel_structural hs) (by rw [unlabel_typeDef]; exact hd)
      (unlabelled_known hkn) (q1 ▸ h32) q3, .seq q4 q5⟩
  | array hr hs hd hkn _ ih =>
    obtain ⟨qs, q1, q2, q3, q4, q5⟩ := elems_plain ih
    exact ⟨_, q2 ▸ .array (unlabelled_resolve hr) (unlabel_structural hs) (by rw [unlabel_typeDef, q1]; exact hd)
      (unlabelled_known hkn) q3, .seq q4 q5⟩
  | tuple hr hs hd h2 hl _ ih =>
    obtain ⟨qs, q1, q2, q3, q4, q5⟩ := parts_plain hl ih
    exact ⟨_, q2 ▸ .tuple (unlabelled_resolve hr) (unlabel_structural hs) (by rw [unlabel_typeDef]; exact hd) h2
      q1 q3, .tuple q4 q5⟩
  | primitive hr hs hd h =>
    exact ⟨_, .primitive (unlabelled_resolve hr) (unlabel_structural hs) (by rw [unlabel_typeDef]; exact hd) h, .same⟩
  | compact hr hs hd _ ih =>
    obtain ⟨u, h1, h2⟩ := ih
    exact ⟨u, .compact (unlabelled_resolve hr) (unlabel_structural hs) (by rw [unlabel_typeDef]; exact hd) h1, h2⟩
  | bits hr hs hd ho hst h =>
    refine ⟨_, .bits (unlabelled_resolve hr) (unlabel_structural hs) (by rw [unlabel_typeDef]; exact hd) ?_ ?_ h, .same⟩
    · obtain ⟨t, fs, h1, h2, h3⟩ := ho
      have hu : unlabel t = t := unlabel_of_not_variant (by rw [h2]; intro vs h; cases h)
      exact ⟨_, fs, unlabelled_resolve h1, by rw [hu]; exact h2, by rw [hu]; exact h3⟩
    · obtain ⟨t, p, h1, h2, h3⟩ := hst
      have hu : unlabel t = t := unlabel_of_not_variant (by rw [h2]; intro vs h; cases h)
      exact ⟨_, p, unlabelled_resolve h1, by rw [hu]; exact h2, h3⟩

end Verif
