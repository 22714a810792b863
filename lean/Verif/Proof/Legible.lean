import Verif.Spec.Legible
import Verif.Props.Text
import Verif.Props.Values
import Verif.Proof.Shown
import Verif.Proof.Canonical
/-! Lines of cards tell the data they are drawn from: single values. -/
namespace Verif
open Spec

theorem toString_nat_inj {a b : Nat} (h : toString a = toString b) : a = b :=
  written_unique (written_repr a) (h ▸ written_repr b)

theorem toString_int_inj {a b : Int} (h : toString a = toString b) : a = b := by
  have key : ∀ {s : String} {n : Nat} {t : String}, Written n s → s.toList = '-' :: t.toList → False := by
    intro s n t hw hs
    have := hw.1.2.1 '-' (by rw [List.append_nil, hs]; simp)
    exact absurd this (by decide)
  have h1 := writtenInt_repr a
  have h2 := writtenInt_repr b
  rw [← h] at h2
  rcases h1 with ⟨p1, w1⟩ | ⟨p1, t1, w1, e1⟩ <;> rcases h2 with ⟨p2, w2⟩ | ⟨p2, t2, w2, e2⟩
  · have := written_unique w1 w2; omega
  · exact (key (t := t2) w1 (by rw [e2]; simp)).elim
  · exact (key (t := t1) w2 (by rw [e1]; simp)).elim
  · rw [e1] at e2
    have e3 := congrArg String.toList e2
    simp only [String.toList_append, List.append_cancel_left_eq, String.toList_inj] at e3
    subst e3
    have := written_unique w1 w2; omega

theorem hexDigit_unique {c : Char} {i j : Nat} (h : HexDigit c i) (h' : HexDigit c j) : i = j := by
  cases h with | mk _ _ h => cases h' with | mk _ _ h' =>
  have e : "0123456789abcdef".toList = ['0','1','2','3','4','5','6','7','8','9','a','b','c','d','e','f'] := rfl
  rw [e] at h h'
  have hi := (List.getElem?_eq_some_iff.1 h).1
  have hj := (List.getElem?_eq_some_iff.1 h').1
  exact (List.getElem?_inj hi (by decide)).1 (h.trans h'.symm)

theorem hexText_unique {s : List Char} {l l' : List Nat} (h : HexText s l) (h' : HexText s l') : l = l' := by
  induction h generalizing l' with
  | nil => cases h'; rfl
  | cons a b _ ih =>
    cases h' with
    | cons a' b' c' => rw [hexDigit_unique a a', hexDigit_unique b b', ih c']

theorem hexBytes_inj {a b : Bytes} (h : hexBytes a = hexBytes b) : a = b := by
  have h1 := hexText_bytes a
  have h2 := hexText_bytes b
  rw [← h] at h2
  exact (List.map_inj_right fun x y e => UInt8.toNat_inj.1 e).1 (hexText_unique h1 h2)

theorem natBytes_inj {l l' : List Nat} (hl : ∀ b ∈ l, b < 256) (hl' : ∀ b ∈ l', b < 256)
    (h : natBytes l = natBytes l') : l = l' := by
  have key : ∀ {m : List Nat}, (∀ b ∈ m, b < 256) → (natBytes m).map UInt8.toNat = m := by
    intro m hm
    unfold natBytes
    rw [List.map_map]
    conv => rhs; rw [← List.map_id m]
    refine List.map_congr_left fun b hb => ?_
    simpa using hm b hb
  rw [← key hl, ← key hl', h]

variable {P : Printers} {specs : ShortSpecs} {specName : String}
  {showBits : BitStore → BitOrder → List Bool → String}

theorem sequenceU8_inj {l l' : List Nat} {i i' : List InfoFlat} (hl : ∀ b ∈ l, b < 256) (hl' : ∀ b ∈ l', b < 256)
    (h : (sequenceU8Card l i).line showBits = (sequenceU8Card l' i').line showBits) : l = l' := by
  unfold sequenceU8Card at h
  cases h1 : stringFromUtf8 (natBytes l) with
  | none =>
    cases h2 : stringFromUtf8 (natBytes l') with
    | none =>
      rw [h1, h2] at h
      simp only [ParserCard.line, Prod.mk.injEq, Option.some.injEq, true_and] at h
      have a := hexEncode_ok hl
      rw [h] at a
      exact hexText_unique a (hexEncode_ok hl')
    | some t => rw [h1, h2] at h; simp [ParserCard.line] at h
  | some s =>
    cases h2 : stringFromUtf8 (natBytes l') with
    | none => rw [h1, h2] at h; simp [ParserCard.line] at h
    | some t =>
      rw [h1, h2] at h
      simp only [ParserCard.line, Prod.mk.injEq, Option.some.injEq, true_and] at h
      subst h
      exact natBytes_inj hl hl' ((stringFromUtf8_iff.1 h1).trans (stringFromUtf8_iff.1 h2).symm)

/-- Two runs of characters of a kind, each followed by one not of the kind. -/
theorem split_kind {p : Char → Bool} {x x' y y' : List Char} {c c' : Char} (hx : ∀ a ∈ x, p a = true)
    (hx' : ∀ a ∈ x', p a = true) (hc : p c = false) (hc' : p c' = false)
    (h : x ++ c :: y = x' ++ c' :: y') : x = x' ∧ y = y' := by
  induction x generalizing x' with
  | nil =>
    cases x' with
    | nil => simp at h; exact ⟨rfl, h.2⟩
    | cons a x' =>
      simp at h
      have := hx' a (by simp)
      rw [← h.1, hc] at this; cases this
  | cons a x ih =>
    cases x' with
    | nil =>
      simp at h
      have := hx a (by simp)
      rw [h.1, hc'] at this; cases this
    | cons a' x' =>
      simp at h
      obtain ⟨e1, e2⟩ := ih (fun a ha => hx a (by simp [ha])) (fun a ha => hx' a (by simp [ha])) h.2
      exact ⟨by rw [h.1, e1], e2⟩

theorem digits_toString (n : Nat) : ∀ c ∈ (toString n).toList, c.isDigit = true := by
  intro c hc
  exact (written_repr n).1.2.1 c (by simpa using hc)

theorem era_inj {e e' : Era} (h : (ParserCard.era e).line showBits = (ParserCard.era e').line showBits) : e = e' := by
  have key : ∀ a b : String, "Immortal" = "Mortal, phase: " ++ a ++ ", period: " ++ b → False := by
    intro a b h
    have := congrArg (·.toList.head?) h
    simp at this
  cases e with
  | immortal =>
    cases e' with
    | immortal => rfl
    | mortal a b => simp only [ParserCard.line, Prod.mk.injEq, Option.some.injEq, true_and] at h; exact (key _ _ h).elim
  | mortal a b =>
    cases e' with
    | immortal => simp only [ParserCard.line, Prod.mk.injEq, Option.some.injEq, true_and] at h; exact (key _ _ h.symm).elim
    | mortal a' b' =>
      simp only [ParserCard.line, Prod.mk.injEq, Option.some.injEq, true_and] at h
      have h := congrArg String.toList h
      have e : ", period: ".toList = ',' :: " period: ".toList := rfl
      simp only [String.toList_append, List.append_assoc, List.append_cancel_left_eq] at h
      rw [e, List.cons_append, List.cons_append] at h
      obtain ⟨h1, h2⟩ := split_kind (p := Char.isDigit) (digits_toString b) (digits_toString b') (by decide) (by decide) h
      simp only [List.append_cancel_left_eq, String.toList_inj] at h2
      rw [String.toList_inj] at h1
      rw [toString_nat_inj h1, toString_nat_inj h2]

theorem currencyText_inj {v v' : Nat} (hd : specs.decimals < 256) (hv : v < 2 ^ 128) (hv' : v' < 2 ^ 128)
    (h : currencyText (convertBalancePretty v specs.decimals specs.unit) =
      currencyText (convertBalancePretty v' specs.decimals specs.unit)) : v = v' := by
  apply balance_injective (unit := specs.unit) hv hv' hd
  obtain ⟨cur, _, _, _, w, f, _, _, h1, _, _, h4, _⟩ := balance_form v specs.decimals specs.unit hv hd
  obtain ⟨cur', _, _, _, w', f', _, _, h1', _, _, h4', _⟩ := balance_form v' specs.decimals specs.unit hv' hd
  rw [h1, h1'] at h ⊢
  have key : ∀ {s : String} {w f : List Char}, Decimal s w f → ∀ c ∈ s.toList, (c != ' ') = true := by
    intro s w f hs c hc
    obtain ⟨-, g1, g2⟩ := hs
    have : c.isDigit = true ∨ c = '.' := by
      rw [g2] at hc
      split at hc
      · exact .inl (g1 c (by simp [hc]))
      · simp only [List.mem_append, List.mem_cons] at hc
        rcases hc with hc | hc | hc
        · exact .inl (g1 c (by simp [hc]))
        · exact .inr hc
        · exact .inl (g1 c (by simp [hc]))
    rcases this with h | h
    · have : c ≠ ' ' := by rintro rfl; revert h; decide
      simpa using this
    · subst h; decide
  simp only [currencyText] at h
  have h := congrArg String.toList h
  have e : " ".toList = [' '] := rfl
  simp only [String.toList_append, List.append_assoc, e, List.singleton_append] at h
  obtain ⟨e1, e2⟩ := split_kind (p := fun c => c != ' ') (key h4) (key h4') (by decide) (by decide) h
  obtain ⟨n, u⟩ := cur
  obtain ⟨n', u'⟩ := cur'
  rw [String.toList_inj] at e1 e2
  simp only at e1 e2
  rw [e1, e2]

theorem fixed_inj (F : Faithful P specs showBits) {k k' : FixedKind} {a b : Bytes} (ha : a.length = k.len)
    (hb : b.length = k'.len)
    (h : (fixedCard P specs k a).line showBits = (fixedCard P specs k' b).line showBits) : k = k' ∧ a = b := by
  have e : k = k' := by
    have := congrArg Prod.fst h
    revert this
    clear h ha hb
    cases k <;> cases k' <;> simp [fixedCard, ParserCard.line, FixedKind.cardName]
  subst e
  refine ⟨rfl, ?_⟩
  cases k <;> simp only [fixedCard, ParserCard.line, Printers.idData, Prod.mk.injEq, Option.some.injEq, true_and] at h
  all_goals first | exact hexBytes_inj h | exact F.keys _ _ _ ha hb h

theorem uint_inj (F : Faithful P specs showBits) {w : UW} {l : SpecUInt} {v v' : Nat} {db : Bool}
    (hv : v < 2 ^ (8 * w.bytes)) (hv' : v' < 2 ^ (8 * w.bytes))
    (h : (specialtyCard w v l db specs specName).line showBits =
      (specialtyCard w v' l db specs specName).line showBits) : v = v' := by
  have r : 2 ^ (8 * w.bytes) ≤ 2 ^ 128 := Nat.pow_le_pow_right (by omega) (by cases w <;> simp [UW.bytes])
  have key : ∀ {a b : String}, specName ++ a = specName ++ b → a = b := by
    intro a b h
    have := congrArg String.toList h
    simpa [String.toList_inj] using this
  cases l <;> cases db <;>
    simp only [specialtyCard, ParserCard.line, Prod.mk.injEq, Option.some.injEq, true_and, if_true, Bool.false_eq_true,
      if_false] at h
  all_goals first
    | exact toString_nat_inj h
    | exact toString_nat_inj (key h)
    | exact currencyText_inj F.decimals (by omega) (by omega) h

/-! ### Trees -/

theorem peel_unique {R : Registry} {h h1 h2 : Hint} {is is1 is2 : List Info} {id c1 c2 : Nat}
    (a : Peel R h is id h1 is1 c1) (b : Peel R h is id h2 is2 c2) : h1 = h2 ∧ is1 = is2 ∧ c1 = c2 := by
  induction a with
  | stop r n =>
    cases b with
    | stop r' n' => cases resolve_inj r r'; exact ⟨rfl, rfl, rfl⟩
    | struct r' s d => cases resolve_inj r r'; exact absurd d ((n s).1 _)
    | compact r' s d => cases resolve_inj r r'; exact absurd d ((n s).2 _)
  | struct r s d _ ih =>
    cases b with
    | stop r' n' => cases resolve_inj r r'; exact absurd d ((n' s).1 _)
    | struct r' s' d' e' => cases resolve_inj r r'; rw [d] at d'; cases d'; exact ih e'
    | compact r' s' d' => cases resolve_inj r r'; rw [d] at d'; cases d'
  | compact r s d _ ih =>
    cases b with
    | stop r' n' => cases resolve_inj r r'; exact absurd d ((n' s).2 _)
    | struct r' s' d' => cases resolve_inj r r'; rw [d] at d'; cases d'
    | compact r' s' d' e' => cases resolve_inj r r'; rw [d] at d'; cases d'; exact ih e'

/-- The second tree is of the type found for the first. -/
macro "same" r:ident : tactic => `(tactic|
  (cases resolve_inj $r (by assumption)))

/-- The second tree cannot be of this form. -/
macro "odd" : tactic => `(tactic| (exfalso; simp_all [Structural, IsSignature]; done))

theorem shown_compact {R : Registry} {h : Hint} {is : List Info} {id : Nat} {d : ED} {t : Typ} {inner : Nat}
    (a : Shown R h is id d) (r : R.resolve id = .ok t) (s : Structural t.path) (e : t.typeDef = .compact inner) :
    Shown R h (is ++ ownInfo t) inner d := by
  cases a <;> same r <;> first | odd | skip
  rename_i e' _ _
  rw [e] at e'
  cases e'
  assumption

theorem shown_own {R : Registry} {h : Hint} {is : List Info} {id : Nat} {d : ED} {t : Typ}
    (a : Shown R h is id d) (r : R.resolve id = .ok t) (e : Structural t.path → ∀ inner, t.typeDef ≠ .compact inner) :
    d.info = is ++ ownInfo t := by
  cases a <;> same r <;> first | rfl | skip
  exact absurd (by assumption) (e (by assumption) _)

theorem inv_list {R : Registry} {h : Hint} {is : List Info} {id : Nat} {d : ED} {t : Typ} {elem : Nat}
    (a : Shown R h is id d) (r : R.resolve id = .ok t) (s : Structural t.path)
    (e : t.typeDef = .sequence elem ∨ ∃ n, t.typeDef = .array n elem) :
    ∃ (h' : Hint) (is' : List Info) (core : Nat) (es : List ED), Peel R .none [] elem h' is' core ∧ (∀ e ∈ es, Shown R h' [] core e) ∧
      ((∀ s, ¬ Collected (es.map (·.data)) s) ∧ d.data = .sequenceRaw is' (es.map (·.data)) ∨
        ∃ s, Collected (es.map (·.data)) s ∧ d.data = .sequence is' s) := by
  rcases e with e | ⟨n, e⟩ <;> cases a <;> same r <;> first | odd | skip
  · rename_i h1 h2 h3 h4 h5 h6
    simp only [e, TypeDef.sequence.injEq, reduceCtorEq, or_false] at h5
    subst h5
    exact ⟨_, _, _, _, h1, h2, .inl ⟨h3, rfl⟩⟩
  · rename_i h1 h2 h3 h4 h5 h6
    simp only [e, TypeDef.sequence.injEq, reduceCtorEq, or_false] at h5
    subst h5
    exact ⟨_, _, _, _, h1, h2, .inr ⟨_, h3, rfl⟩⟩
  · rename_i h1 h2 h3 h4 h5 h6
    simp only [e, TypeDef.array.injEq, reduceCtorEq, false_or] at h5
    cases h5.2
    exact ⟨_, _, _, _, h1, h2, .inl ⟨h3, rfl⟩⟩
  · rename_i h1 h2 h3 h4 h5 h6
    simp only [e, TypeDef.array.injEq, reduceCtorEq, false_or] at h5
    cases h5.2
    exact ⟨_, _, _, _, h1, h2, .inr ⟨_, h3, rfl⟩⟩

theorem inv_uint {R : Registry} {h : Hint} {is : List Info} {id : Nat} {d : ED} {t : Typ} {p : Prim} {w : UW}
    (a : Shown R h is id d) (r : R.resolve id = .ok t) (s : Structural t.path) (e : t.typeDef = .primitive p)
    (u : IsUInt p w) : ∃ v, d.data = .uint w v (uintLabel h) := by
  cases u <;> cases a <;> same r <;> first | odd | skip
  all_goals
    rename_i u' _ e' _
    rw [e] at e'
    cases e'
    (cases u' <;> exact ⟨_, rfl⟩)

theorem no_compact {R : Registry} {t : Typ} {i : UInt8} {k : FixedKind} (h : IsSignature R t i k) (inner : Nat) :
    t.typeDef ≠ .compact inner := by
  obtain ⟨_, vs, _, _, e, _⟩ := h
  rw [e]; simp

theorem shown_info {R : Registry} {h h' : Hint} {is : List Info} {id : Nat} {d d' : ED} (a : Shown R h is id d)
    (b : Shown R h' is id d') : d.info = d'.info := by
  induction a generalizing d' h' with
  | compact r s e _ ih => exact ih (shown_compact b r s e)
  | list r s e | collected r s e =>
    refine (shown_own b r ?_).symm
    intro _ inner g
    rw [g] at e
    rcases e with e | e <;> cases e
  | signature r s => exact (shown_own b r fun _ => no_compact s).symm
  | _ =>
    refine (shown_own b (by assumption) ?_).symm
    intro _ inner
    simp_all [Structural]

theorem labelledHash_cases (h : Hint) (bs : Bytes) :
    labelledHash h bs = .genesisHash bs ∨ labelledHash h bs = .blockHash bs ∨ labelledHash h bs = .h256 bs := by
  unfold labelledHash
  split
  · simp
  · split <;> simp

/-- A number stays a number with the same label. -/
theorem uint_stays {R : Registry} {h : Hint} {is is' : List Info} {id : Nat} {d d' : ED} {w : UW} {v : Nat}
    {l : SpecUInt} (a : Shown R h is id d) (e : d.data = .uint w v l) (b : Shown R h is' id d') :
    ∃ v', d'.data = .uint w v' l := by
  induction a generalizing d' is' with
  | compact r s g _ ih => exact ih e (shown_compact b r s g)
  | uint r s g u => cases e; exact inv_uint b r s g u
  | @hash h _ _ _ bs =>
    rcases labelledHash_cases h bs with g | g | g <;> (dsimp only at e; rw [g] at e; cases e)
  | _ => cases e

theorem collected_unique {ds : List PD} {s s' : Sequence} (a : Collected ds s) (b : Collected ds s') : s = s' := by
  have := collected_iff.2 a
  rw [collected_iff.2 b] at this
  exact (Option.some.inj this).symm

theorem collected_nil {s : Sequence} : ¬ Collected [] s := by
  intro h
  have := collected_iff.2 h
  simp [wrapSequence] at this

/-- Elements that are numbers. -/
theorem uints_stay {R : Registry} {h : Hint} {core : Nat} {es es' : List ED} {w : UW} {l : List Nat}
    (hl : l ≠ []) (a : ∀ e ∈ es, Shown R h [] core e) (b : ∀ e ∈ es', Shown R h [] core e)
    (e : es.map (·.data) = l.map fun v => .uint w v .none) :
    ∃ l' : List Nat, es'.map (·.data) = l'.map fun v => .uint w v .none := by
  cases l with
  | nil => exact absurd rfl hl
  | cons v l =>
    cases es with
    | nil => cases e
    | cons d es =>
      simp only [List.map_cons, List.cons.injEq] at e
      have k := fun d' hd' => uint_stays (a d (by simp)) e.1 (b d' hd')
      clear a b e
      induction es' with
      | nil => exact ⟨[], rfl⟩
      | cons d' es' ih =>
        obtain ⟨l', hl'⟩ := ih fun x hx => k x (by simp [hx])
        obtain ⟨v', hv'⟩ := k d' (by simp)
        exact ⟨v' :: l', by simp [hl', hv']⟩

theorem listDef {t : Typ} {n elem : Nat} (g : t.typeDef = .sequence elem ∨ t.typeDef = .array n elem) :
    t.typeDef = .sequence elem ∨ ∃ n, t.typeDef = .array n elem := g.imp id fun g => ⟨_, g⟩

/-- Bytes stay bytes, or there are none. -/
theorem bytes_stay {R : Registry} {h : Hint} {is is' : List Info} {id : Nat} {d d' : ED} {i : List Info} {l : List Nat}
    (a : Shown R h is id d) (e : d.data = .sequence i (.uints .u8 l)) (b : Shown R h is' id d') :
    (∃ l', d'.data = .sequence i (.uints .u8 l')) ∨ d'.data = .sequenceRaw i [] := by
  induction a generalizing d' is' with
  | compact r s g _ ih => exact ih e (shown_compact b r s g)
  | @collected h h' is is' id elem core t es s r st g p hs c =>
    cases e
    generalize hds : es.map (·.data) = ds at c
    cases c with
    | uints hl =>
      obtain ⟨_, _, _, es', p', hs', k⟩ := inv_list b r st (listDef g)
      obtain ⟨rfl, rfl, rfl⟩ := peel_unique p p'
      obtain ⟨l', hl'⟩ := uints_stay hl hs hs' hds
      rcases k with ⟨k, e⟩ | ⟨s', k, e⟩
      · cases l' with
        | nil => right; rw [e, hl']; rfl
        | cons v l' => exact absurd (by rw [hl']; exact .uints (by simp)) (k (.uints .u8 (v :: l')))
      · rw [hl'] at k
        cases l' with
        | nil => exact absurd k collected_nil
        | cons v l' => left; exact ⟨v :: l', by rw [e, collected_unique k (.uints (by simp))]⟩
  | @hash h _ _ _ bs =>
    rcases labelledHash_cases h bs with g | g | g <;> (dsimp only at e; rw [g] at e; cases e)
  | _ => cases e

/-- Elements that are bytes are collected when the first is. -/
theorem bytes_collected {R : Registry} {h : Hint} {core : Nat} {es : List ED} {e : ED} {i : List Info} {l : List Nat}
    (a : ∀ e ∈ es, Shown R h [] core e) (he : es.head? = some e) (g : e.data = .sequence i (.uints .u8 l)) :
    ∃ l', Collected (es.map (·.data)) (.vecU8 l' i) := by
  have k : ∀ x ∈ es, ∃ l', x.data = .sequence i (.uints .u8 l') ∨ (∃ j, x.data = .sequenceRaw j [] ∧ l' = []) := by
    intro x hx
    rcases bytes_stay (a e (List.mem_of_mem_head? (by simpa using he))) g (a x hx) with ⟨l', h1⟩ | h1
    · exact ⟨l', .inl h1⟩
    · exact ⟨[], .inr ⟨_, h1, rfl⟩⟩
  have k2 : ∃ ll : List (List Nat), es.length = ll.length ∧ ∀ x ∈ (es.map (·.data)).zip ll,
      x.1 = .sequence i (.uints .u8 x.2) ∨ ∃ i, x.1 = .sequenceRaw i [] ∧ x.2 = [] := by
    clear a he g
    induction es with
    | nil => exact ⟨[], rfl, by simp⟩
    | cons d es ih =>
      obtain ⟨ll, h1, h2⟩ := ih fun x hx => k x (by simp [hx])
      obtain ⟨l', h3⟩ := k d (by simp)
      refine ⟨l' :: ll, by simp [h1], ?_⟩
      intro x hx
      simp only [List.map_cons, List.zip_cons_cons, List.mem_cons] at hx
      rcases hx with rfl | hx
      · exact h3
      · exact h2 x hx
  obtain ⟨ll, h1, h2⟩ := k2
  exact ⟨ll, .bytes ⟨l, by rw [List.head?_map, he, Option.map_some, g]⟩ (by simpa using h1) h2⟩

/-- Fields shown for `fields`, with labels `lab`. -/
structure FieldsShown (R : Registry) (lab : Field → Hint) (fields : List Field) (ds : List FD) : Prop where
  length : ds.length = fields.length
  texts : ∀ x ∈ fields.zip ds, x.2.fieldName = x.1.name ∧ x.2.typeName = x.1.typeName ∧ x.2.fieldDocs = lines x.1.docs
  shown : ∀ x ∈ fields.zip ds, Shown R (lab x.1) [] x.1.ty x.2.data

theorem inv_struct {R : Registry} {h : Hint} {is : List Info} {id : Nat} {d : ED} {t : Typ} {fields : List Field}
    (a : Shown R h is id d) (r : R.resolve id = .ok t) (s : Structural t.path) (e : t.typeDef = .composite fields) :
    ∃ ds, FieldsShown R (fun f => first (handed fields.length h) (fieldLabel f)) fields ds ∧ d.data = .composite ds := by
  cases a <;> same r <;> first | odd | skip
  rename_i h1 h2 h3 _ h5 _
  rw [e] at h5
  cases h5
  exact ⟨_, ⟨h1, h2, h3⟩, rfl⟩

theorem inv_tuple {R : Registry} {h : Hint} {is : List Info} {id : Nat} {d : ED} {t : Typ} {ids : List Nat}
    (a : Shown R h is id d) (r : R.resolve id = .ok t) (s : Structural t.path) (e : t.typeDef = .tuple ids) :
    ∃ ds, ds.length = ids.length ∧ (∀ x ∈ ids.zip ds, ∀ u, R.resolve x.1 = .ok u →
        Shown R (first (handed ids.length h) (pathLabel u)) [] x.1 x.2) ∧ d.data = .tuple ds := by
  cases a <;> same r <;> first | odd | skip
  rename_i h1 h2 h3 _ h5 _
  rw [e] at h5
  cases h5
  exact ⟨_, h1, h3, rfl⟩

/-- Trees of an enum type; the fields meet `Q`. -/
inductive EnumShown (R : Registry) (Q : List Field → List FD → Prop) (t : Typ) (vs : List Variant) : PD → Prop
  | never : vs = [] → EnumShown R Q t vs .emptyEnum
  | variant {v : Variant} {ds : List FD} : v ∈ vs → FieldsShown R fieldLabel v.fields ds → Q v.fields ds →
      EnumShown R Q t vs (.variant v.name (lines v.docs) ds)
  | signature {i : UInt8} {k : FixedKind} {bs : Bytes} : IsSignature R t i k → EnumShown R Q t vs (.fixed k bs)
  | pallet {t' : Typ} {inner : List Variant} {w v : Variant} {f : Field} {item : PalletItem} {ds : List FD} :
      special t.path = some (.pallet item) → w ∈ vs → w.fields = [f] →
      R.resolve f.ty = .ok t' → t'.typeDef = .variant inner → v ∈ inner → FieldsShown R fieldLabel v.fields ds →
      Q v.fields ds → EnumShown R Q t vs (.pallet item ⟨lines t'.docs, t'.path⟩ (lines v.docs) w.name v.name ds)

theorem inv_enum {R : Registry} {h : Hint} {is : List Info} {id : Nat} {d : ED} {t : Typ} {vs : List Variant}
    (a : Shown R h is id d) (r : R.resolve id = .ok t) (s : Structural t.path) (e : t.typeDef = .variant vs) :
    EnumShown R (fun _ _ => True) t vs d.data := by
  cases a <;> same r <;> first | odd | skip
  · rename_i s1 e1 _
    rw [e] at e1; cases e1
    exact .never rfl
  · rename_i h1 h2 h3 h4 s1 e1 _
    rw [e] at e1; cases e1
    exact .variant h1 ⟨h2, h3, h4⟩ trivial
  · exact .signature (by assumption)
  · rename_i h1 h2 h3 h4 h5 h6 h7 h8 h9 s1 e1 _
    rw [e] at e1; cases e1
    exact .pallet s1 h1 h2 h3 h5 h6 ⟨h7, h8, h9⟩ trivial

theorem fds_ranged {l : List (Option String × Value)} {ds : List FD} (e : fdsValue ds = l) (h : ∀ f ∈ l, Ranged f.2) :
    ∀ d ∈ ds, Ranged (edValue d.data) := by
  subst e
  induction ds with
  | nil => simp
  | cons d ds ih =>
    obtain ⟨n, ty, docs, x⟩ := d
    simp only [fdsValue, fdValue, List.mem_cons, forall_eq_or_imp] at h ⊢
    exact ⟨h.1, ih h.2⟩

theorem record_ranged {ds : List FD} (h : Ranged (recordValue (fdsValue ds))) : ∀ d ∈ ds, Ranged (edValue d.data) := by
  match ds with
  | [] => simp
  | [⟨n, ty, docs, x⟩] =>
    simp only [fdsValue, fdValue, recordValue] at h
    simpa using h
  | ⟨n, ty, docs, x⟩ :: ⟨n', ty', docs', x'⟩ :: ds =>
    simp only [fdsValue, fdValue, recordValue] at h
    cases h with
    | record h => exact fds_ranged rfl h

theorem pds_ranged {ds : List PD} (h : ∀ v ∈ pdsValue ds, Ranged v) : ∀ d ∈ ds, Ranged (pdValue d) := by
  induction ds with
  | nil => simp
  | cons d ds ih =>
    simp only [pdsValue, List.mem_cons, forall_eq_or_imp] at h ⊢
    exact ⟨h.1, ih h.2⟩

theorem eds_ranged {ds : List ED} (h : ∀ v ∈ edsValue ds, Ranged v) : ∀ d ∈ ds, Ranged (edValue d) := by
  induction ds with
  | nil => simp
  | cons d ds ih =>
    simp only [edsValue, List.mem_cons, forall_eq_or_imp] at h ⊢
    exact ⟨h.1, ih h.2⟩

theorem edValue_eq (d : ED) : edValue d = pdValue d.data := by obtain ⟨a, b⟩ := d; simp [edValue]

section
variable (P specs specName showBits)

/-- The lines of `d` tell `d`, among trees of its type. -/
def Reads (R : Registry) (h : Hint) (id : Nat) (d : ED) : Prop :=
  ∀ (is' : List Info) (d' : ED), Shown R h is' id d' → Ranged (edValue d) → Ranged (edValue d') →
    ∀ (info info' : List InfoFlat) (i i' : Nat) (db : Bool) (rest rest' : List (String × Option String)),
      cardLines showBits (d.data.card P specs specName info i db) ++ rest =
        cardLines showBits (d'.data.card P specs specName info' i' db) ++ rest' → d.data = d'.data ∧ rest = rest'
end

theorem cardLines_append (a b : List ExtendedCard) :
    cardLines showBits (a ++ b) = cardLines showBits a ++ cardLines showBits b := List.map_append

theorem cardLines_cons (c : ExtendedCard) (b : List ExtendedCard) :
    cardLines showBits (c :: b) = c.parserCard.line showBits :: cardLines showBits b := rfl

theorem cardLines_nil : cardLines showBits [] = [] := rfl

/-- Fields of one list are told by their lines. -/
theorem fieldSet_reads {R : Registry} {lab : Field → Hint} {fields : List Field} {ds ds' : List FD}
    (a : FieldsShown R lab fields ds) (b : FieldsShown R lab fields ds')
    (ih : ∀ x ∈ fields.zip ds, Reads P specs specName showBits R (lab x.1) x.1.ty x.2.data)
    (g : ∀ d ∈ ds, Ranged (edValue d.data)) (g' : ∀ d ∈ ds', Ranged (edValue d.data))
    {n i i' : Nat} {db : Bool} {rest rest' : List (String × Option String)}
    (h : cardLines showBits (cardFieldSet P specs specName ds n i db) ++ rest =
      cardLines showBits (cardFieldSet P specs specName ds' n i' db) ++ rest') : ds = ds' ∧ rest = rest' := by
  obtain ⟨a1, a2, a3⟩ := a
  obtain ⟨b1, b2, b3⟩ := b
  induction fields generalizing ds ds' n with
  | nil =>
    cases List.eq_nil_of_length_eq_zero a1
    cases List.eq_nil_of_length_eq_zero b1
    exact ⟨rfl, by simpa [cardFieldSet, cardLines_nil] using h⟩
  | cons f fields ihf =>
    cases ds with
    | nil => simp at a1
    | cons d ds =>
      cases ds' with
      | nil => simp at b1
      | cons d' ds' =>
        simp only [List.length_cons, Nat.add_right_cancel_iff] at a1 b1
        simp only [List.zip_cons_cons, List.mem_cons, forall_eq_or_imp] at a2 a3 b2 b3 ih g g'
        obtain ⟨dn, dt, dd, ⟨x, xi⟩⟩ := d
        obtain ⟨dn', dt', dd', ⟨x', xi'⟩⟩ := d'
        obtain ⟨⟨q1, q2, q3⟩, a2⟩ := a2
        obtain ⟨⟨q1', q2', q3'⟩, b2⟩ := b2
        simp only at q1 q2 q3 q1' q2' q3'
        subst q1 q2 q3 q1' q2' q3'
        simp only [cardFieldSet, FD.cardInSet, ED.card, cardLines_append, cardLines_cons, List.cons_append,
          List.append_assoc, List.cons.injEq, true_and] at h
        obtain ⟨e1, e2⟩ := ih.1 _ _ b3.1 g.1 g'.1 _ _ _ _ _ _ _ h
        obtain ⟨e3, e4⟩ := ihf ih.2 g.2 g'.2 e2 a1 a2 a3.2 b1 b2 b3.2
        have e5 := shown_info a3.1 b3.1
        simp only at e1 e5
        subst e1 e3 e5
        exact ⟨rfl, e4⟩

theorem singleUnnamed_eq {R : Registry} {lab : Field → Hint} {fields : List Field} {ds ds' : List FD}
    (a : FieldsShown R lab fields ds) (b : FieldsShown R lab fields ds') : singleUnnamed ds = singleUnnamed ds' := by
  obtain ⟨a1, a2, -⟩ := a
  obtain ⟨b1, b2, -⟩ := b
  match fields, ds, ds' with
  | [], [], [] => rfl
  | [f], [d], [d'] =>
    simp only [List.zip_cons_cons, List.zip_nil_right, List.mem_singleton, forall_eq] at a2 b2
    simp [singleUnnamed, a2.1, b2.1]
  | _ :: _ :: _, _ :: _ :: _, _ :: _ :: _ => rfl

theorem singleUnnamed_one {ds : List FD} (h : singleUnnamed ds = true) : ∃ d, ds = [d] := by
  match ds with
  | [d] => exact ⟨d, rfl⟩

/-- Fields, also a single one. -/
theorem fields_read {R : Registry} {lab : Field → Hint} {fields : List Field} {ds ds' : List FD}
    (a : FieldsShown R lab fields ds) (b : FieldsShown R lab fields ds')
    (ih : ∀ x ∈ fields.zip ds, Reads P specs specName showBits R (lab x.1) x.1.ty x.2.data)
    (g : ∀ d ∈ ds, Ranged (edValue d.data)) (g' : ∀ d ∈ ds', Ranged (edValue d.data))
    {n i i' j j' : Nat} {db : Bool} {info info' : List InfoFlat} {rest rest' : List (String × Option String)}
    (h : cardLines showBits (if singleUnnamed ds then cardFirstUnnamed P specs specName ds info j db
          else cardFieldSet P specs specName ds n i db) ++ rest =
      cardLines showBits (if singleUnnamed ds' then cardFirstUnnamed P specs specName ds' info' j' db
          else cardFieldSet P specs specName ds' n i' db) ++ rest') : ds = ds' ∧ rest = rest' := by
  rw [← singleUnnamed_eq a b] at h
  split at h
  · rename_i hs
    have hs' := hs
    rw [singleUnnamed_eq a b] at hs'
    obtain ⟨a1, a2, a3⟩ := a
    obtain ⟨b1, b2, b3⟩ := b
    obtain ⟨⟨dn, dt, dd, ⟨x, xi⟩⟩, rfl⟩ := singleUnnamed_one hs
    obtain ⟨⟨dn', dt', dd', ⟨x', xi'⟩⟩, rfl⟩ := singleUnnamed_one hs'
    match fields with
    | [] => simp at a1
    | _ :: _ :: _ => simp at a1
    | [f] =>
      simp only [List.zip_cons_cons, List.zip_nil_right, List.mem_singleton, forall_eq] at a2 a3 b2 b3 ih g g'
      obtain ⟨q1, q2, q3⟩ := a2
      obtain ⟨q1', q2', q3'⟩ := b2
      subst q1 q2 q3 q1' q2' q3'
      simp only [cardFirstUnnamed, FD.cardUnnamed] at h
      obtain ⟨e1, e2⟩ := ih _ _ b3 g g' _ _ _ _ _ _ _ h
      have e5 := shown_info a3 b3
      simp only at e1 e5
      subst e1 e5
      exact ⟨rfl, e2⟩
  · exact fieldSet_reads a b ih g g' h

theorem tuple_reads {R : Registry} {lab : Typ → Hint} {ids : List Nat} {ds ds' : List ED}
    (r : ∀ i ∈ ids, ∃ u, R.resolve i = .ok u)
    (a1 : ds.length = ids.length) (b1 : ds'.length = ids.length)
    (a3 : ∀ x ∈ ids.zip ds, ∀ u, R.resolve x.1 = .ok u → Shown R (lab u) [] x.1 x.2)
    (b3 : ∀ x ∈ ids.zip ds', ∀ u, R.resolve x.1 = .ok u → Shown R (lab u) [] x.1 x.2)
    (ih : ∀ x ∈ ids.zip ds, ∀ u, R.resolve x.1 = .ok u → Reads P specs specName showBits R (lab u) x.1 x.2)
    (g : ∀ d ∈ ds, Ranged (edValue d)) (g' : ∀ d ∈ ds', Ranged (edValue d))
    {i i' : Nat} {db : Bool} {rest rest' : List (String × Option String)}
    (h : cardLines showBits (cardTuple P specs specName ds i db) ++ rest =
      cardLines showBits (cardTuple P specs specName ds' i' db) ++ rest') : ds = ds' ∧ rest = rest' := by
  induction ids generalizing ds ds' with
  | nil =>
    cases List.eq_nil_of_length_eq_zero a1
    cases List.eq_nil_of_length_eq_zero b1
    exact ⟨rfl, by simpa [cardTuple, cardLines_nil] using h⟩
  | cons f fields ihf =>
    cases ds with
    | nil => simp at a1
    | cons d ds =>
      cases ds' with
      | nil => simp at b1
      | cons d' ds' =>
        simp only [List.length_cons, Nat.add_right_cancel_iff] at a1 b1
        simp only [List.zip_cons_cons, List.mem_cons, forall_eq_or_imp] at a3 b3 ih g g' r
        obtain ⟨⟨u, hu⟩, r⟩ := r
        obtain ⟨x, xi⟩ := d
        obtain ⟨x', xi'⟩ := d'
        simp only [cardTuple, ED.card, cardLines_append, List.append_assoc] at h
        obtain ⟨e1, e2⟩ := ih.1 u hu _ _ (b3.1 u hu) g.1 g'.1 _ _ _ _ _ _ _ h
        obtain ⟨e3, e4⟩ := ihf r a1 b1 a3.2 b3.2 ih.2 g.2 g'.2 e2
        have e5 := shown_info (a3.1 u hu) (b3.1 u hu)
        simp only at e1 e5
        subst e1 e3 e5
        exact ⟨rfl, e4⟩

theorem elements_read {R : Registry} {h : Hint} {core : Nat} {es es' : List ED} (l : es.length = es'.length)
    (b : ∀ e ∈ es', Shown R h [] core e)
    (ih : ∀ e ∈ es, Reads P specs specName showBits R h core e)
    (g : ∀ d ∈ es, Ranged (edValue d)) (g' : ∀ d ∈ es', Ranged (edValue d))
    {i i' : Nat} {db : Bool} {rest rest' : List (String × Option String)}
    (e : cardLines showBits (cardElements P specs specName (es.map (·.data)) i db) ++ rest =
      cardLines showBits (cardElements P specs specName (es'.map (·.data)) i' db) ++ rest') :
    es.map (·.data) = es'.map (·.data) ∧ rest = rest' := by
  induction es generalizing es' with
  | nil =>
    cases es' with
    | nil => exact ⟨rfl, by simpa [cardElements, cardLines_nil] using e⟩
    | cons => simp at l
  | cons d es ihe =>
    cases es' with
    | nil => simp at l
    | cons d' es' =>
      simp only [List.length_cons, Nat.add_right_cancel_iff] at l
      simp only [List.mem_cons, forall_eq_or_imp] at b ih g g'
      simp only [List.map_cons, cardElements, cardLines_append, List.append_assoc] at e
      obtain ⟨e1, e2⟩ := ih.1 _ _ b.1 g.1 g'.1 _ _ _ _ _ _ _ e
      obtain ⟨e3, e4⟩ := ihe l b.2 ih.2 g.2 g'.2 e2
      exact ⟨by simp [e1, e3], e4⟩

/-- The data of a list with elements `ds`. -/
def listData (is : List Info) (ds : List PD) : PD :=
  match wrapSequence ds with
  | none => .sequenceRaw is ds
  | some s => .sequence is s

theorem listData_eq {is : List Info} {ds : List PD} {x : PD}
    (k : (∀ s, ¬ Collected ds s) ∧ x = .sequenceRaw is ds ∨ ∃ s, Collected ds s ∧ x = .sequence is s) :
    x = listData is ds := by
  unfold listData
  rcases k with ⟨k, rfl⟩ | ⟨s, k, rfl⟩
  · cases h : wrapSequence ds with
    | none => rfl
    | some s => exact absurd (collected_iff.1 h) (k s)
  · rw [collected_iff.2 k]

theorem listData_ranged {is : List Info} {ds : List PD} (h : Ranged (pdValue (listData is ds))) :
    ∀ d ∈ ds, Ranged (pdValue d) := by
  have e : pdValue (listData is ds) = .seq (pdsValue ds) := by
    unfold listData
    cases hw : wrapSequence ds with
    | none => simp only [pdValue]
    | some s => simp only [pdValue, wrapSequence_values hw]
  rw [e] at h
  cases h with | seq h => exact pds_ranged h

/-- The ways to draw a list. -/
inductive ListForm (P : Printers) (specs : ShortSpecs) (specName : String)
    (showBits : BitStore → BitOrder → List Bool → String) (is : List Info) (ds : List PD) : Prop
  | plain : (∀ (l : List (List Nat)) (i : List Info), ¬ Collected ds (.vecU8 l i)) → (∀ info i db,
      cardLines showBits ((listData is ds).card P specs specName info i db) =
        (ParserCard.sequenceAnnounced ds.length []).line showBits ::
          cardLines showBits (cardElements P specs specName ds (i + 1) db)) → ListForm P specs specName showBits is ds
  | bytes (l : List Nat) : ds = l.map (fun v => .uint .u8 v .none) → l ≠ [] → (∀ info i db,
      cardLines showBits ((listData is ds).card P specs specName info i db) = [(sequenceU8Card l []).line showBits]) →
      ListForm P specs specName showBits is ds
  | many (l : List (List Nat)) (a : List Nat) (j : List Info) : Collected ds (.vecU8 l j) →
      ds.length = l.length → l.head? = some a →
      ds.head? = some (.sequence j (.uints .u8 a)) → (∀ info i db,
      cardLines showBits ((listData is ds).card P specs specName info i db) =
        (ParserCard.sequenceAnnounced ds.length []).line showBits ::
          l.map fun x => (sequenceU8Card x []).line showBits) → ListForm P specs specName showBits is ds

theorem sequenceU8_line (l : List Nat) (i : List InfoFlat) :
    (sequenceU8Card l i).line showBits = (sequenceU8Card l []).line showBits := by
  unfold sequenceU8Card
  cases stringFromUtf8 (natBytes l) <;> rfl

theorem listForm (is : List Info) (ds : List PD) : ListForm P specs specName showBits is ds := by
  cases hw : wrapSequence ds with
  | none =>
    refine .plain (fun l i c => ?_) fun info i db => ?_
    · rw [collected_iff.2 c] at hw; cases hw
    · simp only [listData, hw, PD.card, cardLines_cons, ParserCard.line]
  | some s =>
    have c := collected_iff.1 hw
    cases c with
    | @uints w l hl =>
      by_cases h8 : w = .u8
      · subst h8
        refine .bytes l rfl hl fun info i db => ?_
        simp only [listData, hw, PD.card, sequenceCards, cardLines_cons, cardLines_nil, sequenceU8_line l]
      · refine .plain (fun l' i c' => ?_) fun info i db => ?_
        · exact absurd (collected_unique c' (.uints hl)) (by simp)
        · have e : cardLines showBits (l.map fun v => (⟨.uint w v, i + 1, []⟩ : ExtendedCard)) =
              cardLines showBits (cardElements P specs specName (l.map fun v => .uint w v .none) (i + 1) db) := by
            clear hl hw
            induction l with
            | nil => simp [cardElements]
            | cons v l ih => simp only [List.map_cons, cardLines_cons, cardElements, PD.card, specialtyCard,
                List.cons_append, List.nil_append, ih]
          cases w <;> first | exact absurd rfl h8 | skip
          all_goals
            simp only [listData, hw, PD.card, sequenceCards, cardLines_cons, List.length_map]
            rw [e]; rfl
    | @bytes j l ds hh hl hz =>
      obtain ⟨a, ha⟩ := hh
      have c : Collected ds (.vecU8 l j) := .bytes ⟨a, ha⟩ hl hz
      cases ds with
      | nil => cases ha
      | cons d ds =>
        cases l with
        | nil => simp at hl
        | cons a' l =>
          have := hz (d, a') (by simp)
          simp only [List.head?_cons, Option.some.injEq] at ha
          subst ha
          have e : a' = a := by
            rcases this with h | ⟨_, h, _⟩
            · simp at h; exact h.symm
            · cases h
          subst e
          refine .many (a' :: l) a' j c hl rfl rfl fun info i db => ?_
          simp only [listData, hw, PD.card, sequenceCards, cardLines_cons, hl]
          congr 1
          simp only [cardLines, List.map_map]
          exact List.map_congr_left fun x _ => sequenceU8_line x _

theorem announced_inj {n m : Nat} {i j : List InfoFlat} (h : (ParserCard.sequenceAnnounced n i).line showBits =
    (ParserCard.sequenceAnnounced m j).line showBits) : n = m := by
  simp only [ParserCard.line, Prod.mk.injEq, Option.some.injEq, true_and] at h
  have := congrArg String.toList h
  simp only [String.toList_append, List.append_cancel_right_eq, String.toList_inj] at this
  exact toString_nat_inj this

theorem u8_not_announced {l : List Nat} {n : Nat} {i j : List InfoFlat} :
    (ParserCard.sequenceAnnounced n i).line showBits ≠ (sequenceU8Card l j).line showBits := by
  unfold sequenceU8Card
  cases stringFromUtf8 (natBytes l) <;> simp [ParserCard.line]

theorem u8s_ranged {l : List Nat} (h : ∀ d ∈ l.map (fun v => PD.uint .u8 v .none), Ranged (pdValue d)) : ∀ b ∈ l, b < 256 := by
  intro b hb
  have := h _ (List.mem_map_of_mem hb)
  simp only [pdValue] at this
  cases this with | uint h => simpa [UW.bytes] using h

theorem bytes_ranged {l : List (List Nat)} {is : List Info} {j : List Info}
    (h : Ranged (pdValue (.sequence is (.vecU8 l j)))) : ∀ x ∈ l, ∀ b ∈ x, b < 256 := by
  intro x hx b hb
  simp only [pdValue, sequenceValues] at h
  cases h with
  | seq h =>
    have := h _ (List.mem_map_of_mem hx)
    cases this with
    | seq h =>
      have := h _ (List.mem_map_of_mem hb)
      cases this with | uint h => simpa [UW.bytes] using h

theorem u8_lines_inj {l l' : List (List Nat)} (g : ∀ x ∈ l, ∀ b ∈ x, b < 256) (g' : ∀ x ∈ l', ∀ b ∈ x, b < 256)
    (e : l.length = l'.length) {rest rest' : List (String × Option String)}
    (h : (l.map fun x => (sequenceU8Card x []).line showBits) ++ rest =
      (l'.map fun x => (sequenceU8Card x []).line showBits) ++ rest') : l = l' ∧ rest = rest' := by
  induction l generalizing l' with
  | nil =>
    cases l' with
    | nil => exact ⟨rfl, by simpa using h⟩
    | cons => simp at e
  | cons a l ih =>
    cases l' with
    | nil => simp at e
    | cons a' l' =>
      simp only [List.map_cons, List.cons_append, List.cons.injEq, List.length_cons, Nat.add_right_cancel_iff,
        List.mem_cons, forall_eq_or_imp] at h e g g'
      obtain ⟨e1, e2⟩ := ih g.2 g'.2 e h.2
      rw [sequenceU8_inj g.1 g'.1 h.1, e1]
      exact ⟨rfl, e2⟩

/-- First elements. -/
theorem head_reads {R : Registry} {h : Hint} {core : Nat} {es es' : List ED}
    (ih : ∀ e ∈ es, Reads P specs specName showBits R h core e) (b : ∀ e ∈ es', Shown R h [] core e)
    (g : ∀ d ∈ es, Ranged (edValue d)) (g' : ∀ d ∈ es', Ranged (edValue d))
    {d d' : ED} (hd : es.head? = some d) (hd' : es'.head? = some d') {i i' : Nat} {db : Bool}
    {rest rest' : List (String × Option String)}
    (e : cardLines showBits (d.data.card P specs specName [] i db) ++ rest =
      cardLines showBits (d'.data.card P specs specName [] i' db) ++ rest') : d.data = d'.data := by
  have m := List.mem_of_mem_head? (by simpa using hd)
  have m' := List.mem_of_mem_head? (by simpa using hd')
  exact (ih d m _ _ (b d' m') (g d m) (g' d' m') _ _ _ _ _ _ _ e).1

theorem u8_card (i : List Info) (a : List Nat) (info : List InfoFlat) (n : Nat) (db : Bool) :
    cardLines showBits ((PD.sequence i (.uints .u8 a)).card P specs specName info n db) =
      [(sequenceU8Card a []).line showBits] := by
  simp only [PD.card, sequenceCards, cardLines_cons, cardLines_nil, sequenceU8_line a]

theorem list_reads {R : Registry} {h : Hint} {core : Nat} {is : List Info} {es es' : List ED}
    (a : ∀ e ∈ es, Shown R h [] core e) (b : ∀ e ∈ es', Shown R h [] core e)
    (ih : ∀ e ∈ es, Reads P specs specName showBits R h core e)
    (g : Ranged (pdValue (listData is (es.map (·.data))))) (g' : Ranged (pdValue (listData is (es'.map (·.data)))))
    {info info' : List InfoFlat} {i i' : Nat} {db : Bool} {rest rest' : List (String × Option String)}
    (e : cardLines showBits ((listData is (es.map (·.data))).card P specs specName info i db) ++ rest =
      cardLines showBits ((listData is (es'.map (·.data))).card P specs specName info' i' db) ++ rest') :
    listData is (es.map (·.data)) = listData is (es'.map (·.data)) ∧ rest = rest' := by
  have q := listData_ranged g
  have q' := listData_ranged g'
  have p : ∀ d ∈ es, Ranged (edValue d) := fun d hd => by
    rw [edValue_eq]; exact q _ (List.mem_map_of_mem hd)
  have p' : ∀ d ∈ es', Ranged (edValue d) := fun d hd => by
    rw [edValue_eq]; exact q' _ (List.mem_map_of_mem hd)
  cases listForm (P := P) (specs := specs) (specName := specName) (showBits := showBits) is (es.map (·.data)) with
  | plain n1 l1 =>
    cases listForm (P := P) (specs := specs) (specName := specName) (showBits := showBits) is (es'.map (·.data)) with
    | plain n2 l2 =>
      rw [l1, l2, List.cons_append, List.cons_append, List.cons.injEq] at e
      obtain ⟨e1, e2⟩ := elements_read (by simpa using announced_inj e.1) b ih p p' e.2
      rw [e1]; exact ⟨rfl, e2⟩
    | bytes l' m2 m3 l2 =>
      rw [l1, l2, List.cons_append, List.cons_append, List.cons.injEq] at e
      exact absurd e.1 u8_not_announced
    | many l' a' j c2 n2 h2 h3 l2 =>
      exfalso
      rw [l1, l2, List.cons_append, List.cons_append, List.cons.injEq] at e
      have el := announced_inj e.1
      cases l' with
      | nil => cases h2
      | cons x l' =>
        cases h2
        cases es' with
        | nil => cases h3
        | cons d' es' =>
          cases es with
          | nil => simp at el
          | cons d es =>
            simp only [List.map_cons, List.head?_cons, Option.some.injEq] at h3
            have e3 := e.2
            simp only [List.map_cons, cardElements, cardLines_append, List.append_assoc, List.cons_append] at e3
            have : d.data = d'.data := by
              refine head_reads ih b p p' rfl rfl (i := i + 1) (i' := 0) (db := db)
                (rest' := (l'.map fun x => (sequenceU8Card x []).line showBits) ++ rest') (e3.trans ?_)
              rw [h3, u8_card]; rfl
            obtain ⟨l'', hc⟩ := bytes_collected a rfl (this.trans h3)
            exact n1 _ _ hc
  | bytes l m2 m3 l1 =>
    cases listForm (P := P) (specs := specs) (specName := specName) (showBits := showBits) is (es'.map (·.data)) with
    | plain n2 l2 =>
      rw [l1, l2, List.cons_append, List.cons_append, List.cons.injEq] at e
      exact absurd e.1.symm u8_not_announced
    | bytes l' m2' m3' l2 =>
      rw [l1, l2, List.cons_append, List.cons_append, List.cons.injEq] at e
      rw [m2] at q ⊢
      rw [m2'] at q' ⊢
      rw [sequenceU8_inj (u8s_ranged q) (u8s_ranged q') e.1]
      exact ⟨rfl, by simpa using e.2⟩
    | many l' a' j c2 n2 h2 h3 l2 =>
      rw [l1, l2, List.cons_append, List.cons_append, List.cons.injEq] at e
      exact absurd e.1.symm u8_not_announced
  | many l a0 j c1 n1 h1 h1' l1 =>
    have x1 : listData is (es.map (·.data)) = .sequence is (.vecU8 l j) := (listData_eq (.inr ⟨_, c1, rfl⟩)).symm
    cases listForm (P := P) (specs := specs) (specName := specName) (showBits := showBits) is (es'.map (·.data)) with
    | plain n2 l2 =>
      exfalso
      rw [l1, l2, List.cons_append, List.cons_append, List.cons.injEq] at e
      have el := announced_inj e.1
      cases l with
      | nil => cases h1
      | cons x l =>
        cases h1
        cases es with
        | nil => cases h1'
        | cons d es =>
          cases es' with
          | nil => simp at el
          | cons d' es' =>
            simp only [List.map_cons, List.head?_cons, Option.some.injEq] at h1'
            have e3 := e.2
            simp only [List.map_cons, cardElements, cardLines_append, List.append_assoc, List.cons_append] at e3
            have : d.data = d'.data := by
              refine head_reads ih b p p' rfl rfl (i := 0) (i' := i' + 1) (db := db)
                (rest := (l.map fun x => (sequenceU8Card x []).line showBits) ++ rest) (Eq.trans ?_ e3)
              rw [h1', u8_card]; rfl
            obtain ⟨l'', hc⟩ := bytes_collected b rfl (this.symm.trans h1')
            exact n2 _ _ hc
    | bytes l' m2' m3' l2 =>
      rw [l1, l2, List.cons_append, List.cons_append, List.cons.injEq] at e
      exact absurd e.1 u8_not_announced
    | many l' a' j' c2 n2 h2 h3 l2 =>
      rw [l1, l2, List.cons_append, List.cons_append, List.cons.injEq] at e
      have x2 : listData is (es'.map (·.data)) = .sequence is (.vecU8 l' j') := (listData_eq (.inr ⟨_, c2, rfl⟩)).symm
      have el := announced_inj e.1
      rw [x1] at g
      rw [x2] at g'
      obtain ⟨e1, e2⟩ := u8_lines_inj (bytes_ranged g) (bytes_ranged g') (by omega) e.2
      have ej : j = j' := by
        cases es with
        | nil => cases h1'
        | cons d es =>
          cases es' with
          | nil => cases h3
          | cons d' es' =>
            simp only [List.map_cons, List.head?_cons, Option.some.injEq] at h1' h3
            rcases bytes_stay (a d (by simp)) h1' (b d' (by simp)) with ⟨_, k⟩ | k
            · rw [h3] at k; cases k; rfl
            · rw [h3] at k; cases k
      rw [x1, x2, e1, ej]
      exact ⟨rfl, e2⟩

/-- A single line. -/
theorem one_line {c c' : ExtendedCard} {rest rest' : List (String × Option String)}
    (h : cardLines showBits [c] ++ rest = cardLines showBits [c'] ++ rest') :
    c.parserCard.line showBits = c'.parserCard.line showBits ∧ rest = rest' := by
  simpa [cardLines] using h

theorem enum_reads (hn : NamesDistinct R) (F : Faithful P specs showBits) {id : Nat} {t : Typ} {vs : List Variant}
    (r : R.resolve id = .ok t) (hd : t.typeDef = .variant vs) {x x' : PD}
    (a : EnumShown R (fun fields ds => ∀ f ∈ fields.zip ds,
      Reads P specs specName showBits R (fieldLabel f.1) f.1.ty f.2.data) t vs x)
    (b : EnumShown R (fun _ _ => True) t vs x')
    (g : Ranged (pdValue x)) (g' : Ranged (pdValue x'))
    {info info' : List InfoFlat} {i i' : Nat} {db : Bool} {rest rest' : List (String × Option String)}
    (e : cardLines showBits (x.card P specs specName info i db) ++ rest =
      cardLines showBits (x'.card P specs specName info' i' db) ++ rest') : x = x' ∧ rest = rest' := by
  cases a with
  | never hv =>
    subst hv
    cases b with
    | never => exact ⟨rfl, by simp only [PD.card] at e; exact (one_line e).2⟩
    | variant m _ _ => cases m
    | signature k => obtain ⟨_, _, _, _, k1, k2, _⟩ := k; rw [hd] at k1; cases k1; cases (selects_mem k2).1
    | pallet _ m => cases m
  | @variant v ds m f ih =>
    cases b with
    | never hv => subst hv; cases m
    | @variant v' ds' m' f' _ =>
      simp only [PD.card, cardLines_cons, List.cons_append, List.cons.injEq, ParserCard.line, Prod.mk.injEq,
        Option.some.injEq, true_and] at e
      cases hn _ _ _ r hd _ m _ m' e.1
      have g1 : ∀ d ∈ ds, Ranged (edValue d.data) := by simp only [pdValue] at g; cases g with | variant g => exact fds_ranged rfl g
      have g2 : ∀ d ∈ ds', Ranged (edValue d.data) := by simp only [pdValue] at g'; cases g' with | variant g => exact fds_ranged rfl g
      obtain ⟨e1, e2⟩ := fields_read f f' ih g1 g2 e.2
      rw [e1]; exact ⟨rfl, e2⟩
    | signature k =>
      simp only [PD.card, cardLines_cons, List.cons_append, List.cons.injEq] at e
      rename_i k0 _
      have := congrArg Prod.fst e.1
      revert this
      cases k0 <;> simp [ParserCard.line, fixedCard, FixedKind.cardName]
    | pallet k m f =>
      simp only [PD.card, cardLines_cons, List.cons_append, List.cons.injEq, ParserCard.line] at e
      simp at e
  | @signature i0 k0 bs k =>
    cases b with
    | never hv => subst hv; obtain ⟨_, _, _, _, k1, k2, _⟩ := k; rw [hd] at k1; cases k1; cases (selects_mem k2).1
    | variant s m f =>
      simp only [PD.card, cardLines_cons, List.cons_append, List.cons.injEq] at e
      have := congrArg Prod.fst e.1
      revert this
      cases k0 <;> simp [ParserCard.line, fixedCard, FixedKind.cardName]
    | signature k' =>
      simp only [PD.card] at e
      obtain ⟨e1, e2⟩ := one_line e
      simp only [pdValue] at g g'
      cases g with | fixed g =>
      cases g' with | fixed g' =>
      obtain ⟨q1, q2⟩ := fixed_inj F g g' e1
      subst q1 q2
      exact ⟨rfl, e2⟩
    | pallet s m f =>
      simp only [PD.card, cardLines_cons, List.cons_append, List.cons.injEq] at e
      have := congrArg Prod.fst e.1
      revert this
      cases k0 <;> simp [ParserCard.line, fixedCard, FixedKind.cardName]
  | @pallet t1 inner w v f item ds s m hf rt dt mv fs ih =>
    cases b with
    | never hv => subst hv; cases m
    | variant s m f =>
      simp only [PD.card, cardLines_cons, List.cons_append, List.cons.injEq, ParserCard.line] at e
      simp at e
    | @signature _ k0 _ k =>
      simp only [PD.card, cardLines_cons, List.cons_append, List.cons.injEq] at e
      have := congrArg Prod.fst e.1
      revert this
      cases k0 <;> simp [ParserCard.line, fixedCard, FixedKind.cardName]
    | @pallet t2 inner' w' v' f' item' ds' s' m' hf' rt' dt' mv' fs' _ =>
      rw [s] at s'
      cases s'
      simp only [PD.card, cardLines_cons, List.cons_append, List.cons.injEq] at e
      obtain ⟨e1, e2, e⟩ := e
      simp only [ParserCard.line, Prod.mk.injEq, Option.some.injEq, true_and] at e1
      cases hn _ _ _ r hd _ m _ m' e1
      rw [hf] at hf'
      cases hf'
      cases resolve_inj rt rt'
      rw [dt] at dt'
      cases dt'
      have e3 : v.name = v'.name := by
        cases item <;> simpa only [ParserCard.line, Prod.mk.injEq, Option.some.injEq, true_and] using e2
      cases hn _ _ _ rt dt _ mv _ mv' e3
      have g1 : ∀ d ∈ ds, Ranged (edValue d.data) := by simp only [pdValue] at g; cases g with | pallet g => exact fds_ranged rfl g
      have g2 : ∀ d ∈ ds', Ranged (edValue d.data) := by simp only [pdValue] at g'; cases g' with | pallet g => exact fds_ranged rfl g
      obtain ⟨q1, q2⟩ := fields_read fs fs' ih g1 g2 e
      rw [q1]; exact ⟨rfl, q2⟩

theorem bitOrder_unique {R : Registry} {n : Nat} {o o' : BitOrder} (a : IsBitOrder R n o) (b : IsBitOrder R n o') : o = o' := by
  obtain ⟨t, _, r, _, a⟩ := a
  obtain ⟨t', _, r', _, b⟩ := b
  cases resolve_inj r r'
  rcases a with ⟨rfl, a⟩ | ⟨rfl, a⟩ <;> rcases b with ⟨rfl, b⟩ | ⟨rfl, b⟩ <;> first | rfl | (rw [a] at b; simp at b)

theorem bitStore_unique {R : Registry} {n : Nat} {s s' : BitStore} (a : IsBitStore R n s) (b : IsBitStore R n s') : s = s' := by
  obtain ⟨t, p, r, d, a⟩ := a
  obtain ⟨t', p', r', d', b⟩ := b
  cases resolve_inj r r'
  rw [d] at d'
  cases d'
  rcases a with ⟨rfl, rfl⟩ | ⟨rfl, rfl⟩ | ⟨rfl, rfl⟩ | ⟨rfl, rfl⟩ <;> rcases b with ⟨rfl, b⟩ | ⟨rfl, b⟩ | ⟨rfl, b⟩ | ⟨rfl, b⟩ <;>
    first | rfl | cases b

/-- The lines of a tree tell the tree. -/
theorem shown_reads (hn : NamesDistinct R) (F : Faithful P specs showBits) {h : Hint} {is : List Info} {id : Nat}
    {d : ED} (a : Shown R h is id d) : Reads P specs specName showBits R h id d := by
  induction a with
  | @compact h is id t inner d r s e _ ih =>
    intro is' d' b g g' info info' i i' db rest rest' w
    exact ih _ _ (shown_compact b r s e) g g' info info' i i' db rest rest' w
  | @struct h is id t fields ds r s e l n sh ih =>
    intro is' d' b g g' info info' i i' db rest rest' w
    obtain ⟨ds', f', hd'⟩ := inv_struct b r s e
    have f : FieldsShown R (fun f => first (handed fields.length h) (fieldLabel f)) fields ds := ⟨l, n, sh⟩
    rw [edValue_eq, hd'] at g'
    simp only [edValue, pdValue] at g g'
    replace g := record_ranged g
    replace g' := record_ranged g'
    rw [hd'] at w ⊢
    simp only [PD.card] at w
    have le : ds'.isEmpty = ds.isEmpty := by
      have := f.length.trans f'.length.symm
      clear w g g' f f' hd' ih sh n l
      cases ds <;> cases ds' <;> simp at this ⊢
    rw [le] at w
    have key : ds = ds' ∧ rest = rest' := by
      by_cases h0 : ds.isEmpty
      · rw [if_pos h0, if_pos h0] at w
        rw [h0] at le
        simp only [List.isEmpty_iff] at le h0
        subst le h0
        exact ⟨rfl, by simpa [cardLines] using w⟩
      · rw [if_neg h0, if_neg h0] at w
        refine fields_read f f' ih g g' (n := 0) (i := i + 1) (i' := i' + 1) (j := i) (j' := i')
          (info := info) (info' := info') (db := db) ?_
        by_cases h1 : singleUnnamed ds
        · have h1' := h1
          rw [singleUnnamed_eq f f'] at h1'
          rw [if_pos h1, if_pos h1'] at w ⊢
          exact w
        · have h1' := h1
          rw [singleUnnamed_eq f f'] at h1'
          rw [if_neg h1, if_neg h1'] at w ⊢
          simp only [cardLines_cons, List.cons_append, List.cons.injEq] at w
          exact w.2
    obtain ⟨e1, e2⟩ := key
    subst e1
    exact ⟨rfl, e2⟩
  | @never h is id t r s e =>
    intro is' d' b g g' info info' i i' db rest rest' w
    rw [edValue_eq] at g g'
    exact enum_reads hn F r e (.never rfl) (inv_enum b r s e) g g' w
  | @variant h is id t vs v ds r s e m l n sh ih =>
    intro is' d' b g g' info info' i i' db rest rest' w
    rw [edValue_eq] at g g'
    exact enum_reads hn F r e (.variant m ⟨l, n, sh⟩ ih) (inv_enum b r s e) g g' w
  | @signature h is id t ix k bs r sg =>
    intro is' d' b g g' info info' i i' db rest rest' w
    rw [edValue_eq] at g g'
    obtain ⟨hs, vs, _, _, e, _⟩ := sg
    exact enum_reads hn F r e (.signature ⟨hs, vs, _, _, e, ‹_›⟩) (inv_enum b r (by simp [Structural, hs]) e) g g' w
  | @pallet h is id t t' vs inner wv v f item ds r sp e m hf rt st dt mv l n sh ih =>
    intro is' d' b g g' info info' i i' db rest rest' w
    rw [edValue_eq] at g g'
    exact enum_reads hn F r e (.pallet sp m hf rt dt mv ⟨l, n, sh⟩ ih) (inv_enum b r (by simp [Structural, sp]) e) g g' w
  | @list h h' is is0 id elem core t es r s e p sh nc ih =>
    intro is' d' b g g' info info' i i' db rest rest' w
    obtain ⟨_, _, _, es', p', sh', k⟩ := inv_list b r s (listDef e)
    obtain ⟨rfl, rfl, rfl⟩ := peel_unique p p'
    rw [edValue_eq] at g g'
    rw [listData_eq k] at g' w ⊢
    have x := listData_eq (.inl ⟨nc, rfl⟩ : _ ∧ PD.sequenceRaw is0 (es.map (·.data)) = _ ∨ _)
    simp only at g w ⊢
    rw [x] at g w ⊢
    exact list_reads sh sh' ih g g' w
  | @collected h h' is is0 id elem core t es sq r s e p sh c ih =>
    intro is' d' b g g' info info' i i' db rest rest' w
    obtain ⟨_, _, _, es', p', sh', k⟩ := inv_list b r s (listDef e)
    obtain ⟨rfl, rfl, rfl⟩ := peel_unique p p'
    rw [edValue_eq] at g g'
    rw [listData_eq k] at g' w ⊢
    have x := listData_eq (.inr ⟨_, c, rfl⟩ : _ ∨ ∃ s, _ ∧ PD.sequence is0 sq = _)
    simp only at g w ⊢
    rw [x] at g w ⊢
    exact list_reads sh sh' ih g g' w
  | @tuple h is id t ids ds r s e l rs sh ih =>
    intro is' d' b g g' info info' i i' db rest rest' w
    obtain ⟨ds', l', sh', hd'⟩ := inv_tuple b r s e
    rw [edValue_eq, hd'] at g'
    simp only [edValue, pdValue] at g g'
    cases g with | tuple g =>
    cases g' with | tuple g' =>
    replace g := eds_ranged g
    replace g' := eds_ranged g'
    rw [hd'] at w ⊢
    simp only [PD.card] at w
    have key : ds = ds' ∧ rest = rest' := by
      cases ds with
      | nil =>
        cases ds' with
        | nil => exact ⟨rfl, by simpa [cardLines] using w⟩
        | cons => have := l.trans l'.symm; simp at this
      | cons d0 ds =>
        cases ds' with
        | nil => have := l.trans l'.symm; simp at this
        | cons d0' ds' =>
          simp only [List.isEmpty_cons, Bool.false_eq_true, if_false, cardLines_cons, List.cons_append,
            List.cons.injEq] at w
          exact tuple_reads rs l l' sh sh' ih g g' w.2
    obtain ⟨e1, e2⟩ := key
    subst e1
    exact ⟨rfl, e2⟩
  | @fixed h is id t k bs r sp =>
    intro is' d' b g g' info info' i i' db rest rest' w
    cases b <;> same r <;> first | (clear w g g'; odd) | skip
    · rename_i sp' _
      rw [sp] at sp'; cases sp'
      simp only [edValue, pdValue] at g g'
      cases g with | fixed g =>
      cases g' with | fixed g' =>
      simp only [PD.card] at w
      obtain ⟨e1, e2⟩ := one_line w
      obtain ⟨-, e3⟩ := fixed_inj F g g' e1
      exact ⟨by rw [e3], e2⟩
  | @hash h is id t bs r sp =>
    intro is' d' b g g' info info' i i' db rest rest' w
    cases b <;> same r <;> first | (clear w g g'; odd) | skip
    rename_i bs' _ _
    dsimp only at w ⊢
    unfold labelledHash at w ⊢
    split at w
    · rename_i c
      simp only [c, if_true, PD.card] at w ⊢
      obtain ⟨e1, e2⟩ := one_line w
      simp only [ParserCard.line, Prod.mk.injEq, Option.some.injEq, true_and] at e1
      rw [hexBytes_inj e1]; exact ⟨rfl, e2⟩
    · rename_i c
      simp only [c, if_false] at w ⊢
      split at w
      · rename_i c
        simp only [c, if_true, PD.card] at w ⊢
        obtain ⟨e1, e2⟩ := one_line w
        simp only [ParserCard.line, Prod.mk.injEq, Option.some.injEq, true_and] at e1
        rw [hexBytes_inj e1]; exact ⟨rfl, e2⟩
      · rename_i c
        simp only [c, if_false, PD.card] at w ⊢
        obtain ⟨e1, e2⟩ := one_line w
        simp only [ParserCard.line, Prod.mk.injEq, Option.some.injEq, true_and] at e1
        rw [hexBytes_inj e1]; exact ⟨rfl, e2⟩
  | @era h is id t x r sp =>
    intro is' d' b g g' info info' i i' db rest rest' w
    cases b <;> same r <;> first | (clear w g g'; odd) | skip
    simp only [PD.card] at w
    obtain ⟨e1, e2⟩ := one_line w
    rw [era_inj e1]; exact ⟨rfl, e2⟩
  | @per h is id t k v r sp =>
    intro is' d' b g g' info info' i i' db rest rest' w
    cases b <;> same r <;> first | (clear w g g'; odd) | skip
    rename_i sp' _
    rw [sp] at sp'; cases sp'
    simp only [PD.card] at w
    obtain ⟨e1, e2⟩ := one_line w
    simp only [ParserCard.line, Prod.mk.injEq, Option.some.injEq, true_and] at e1
    rw [toString_nat_inj e1]; exact ⟨rfl, e2⟩
  | @uint h is id t p uw v r s e u =>
    intro is' d' b g g' info info' i i' db rest rest' w
    obtain ⟨v', hv'⟩ := inv_uint b r s e u
    rw [edValue_eq, hv'] at g'
    rw [hv'] at w ⊢
    simp only [edValue, pdValue] at g g'
    cases g with | uint g =>
    cases g' with | uint g' =>
    simp only [PD.card] at w
    obtain ⟨e1, e2⟩ := one_line w
    exact ⟨by rw [uint_inj F g g' e1], e2⟩
  | @text h is id t x r s e =>
    intro is' d' b g g' info info' i i' db rest rest' w
    cases b <;> same r <;> first | (clear w g g'; odd) | skip
    all_goals first | (rename_i u _ e' _; rw [e] at e'; cases e'; cases u; done) | skip
    dsimp only at w ⊢
    cases hl : textLabel h <;> rw [hl] at w <;> simp only [PD.card] at w <;>
    · obtain ⟨e1, e2⟩ := one_line w
      simp only [ParserCard.line, Prod.mk.injEq, Option.some.injEq, true_and] at e1
      rw [e1]; exact ⟨rfl, e2⟩
  | @bool h is id t x r s e =>
    intro is' d' b g g' info info' i i' db rest rest' w
    cases b <;> same r <;> first | (clear w g g'; odd) | skip
    all_goals first | (rename_i u _ e' _; rw [e] at e'; cases e'; cases u; done) | skip
    rename_i y _ _ _
    simp only [PD.card] at w
    obtain ⟨e1, e2⟩ := one_line w
    simp only [ParserCard.line, Prod.mk.injEq, Option.some.injEq, true_and] at e1
    have : x = y := by cases x <;> cases y <;> first | rfl | (exact absurd e1 (by decide))
    rw [this]; exact ⟨rfl, e2⟩
  | @char h is id t x r s e =>
    intro is' d' b g g' info info' i i' db rest rest' w
    cases b <;> same r <;> first | (clear w g g'; odd) | skip
    all_goals first | (rename_i u _ e' _; rw [e] at e'; cases e'; cases u; done) | skip
    rename_i y _ _ _
    simp only [PD.card] at w
    obtain ⟨e1, e2⟩ := one_line w
    simp only [ParserCard.line, Prod.mk.injEq, Option.some.injEq, true_and] at e1
    have : x = y := by
      have := congrArg String.toList e1
      simpa using this
    rw [this]; exact ⟨rfl, e2⟩
  | @u256 h is id t x r s e =>
    intro is' d' b g g' info info' i i' db rest rest' w
    cases b <;> same r <;> first | (clear w g g'; odd) | skip
    all_goals first | (rename_i u _ e' _; rw [e] at e'; cases e'; cases u; done) | skip
    simp only [PD.card] at w
    obtain ⟨e1, e2⟩ := one_line w
    simp only [ParserCard.line, Prod.mk.injEq, Option.some.injEq, true_and] at e1
    rw [toString_nat_inj e1]; exact ⟨rfl, e2⟩
  | @int h is id t p iw x r s e u =>
    intro is' d' b g g' info info' i i' db rest rest' w
    cases b <;> same r <;> first | (clear w g g'; odd) | skip
    all_goals first
      | (rename_i e' _; rw [e] at e'; cases e'; cases u; done)
      | (rename_i u' _ e' _; rw [e] at e'; cases e'; cases u <;> cases u'; done)
      | skip
    rename_i u' _ e' _
    rw [e] at e'; cases e'
    cases isInt_unique u u'
    simp only [PD.card] at w
    obtain ⟨e1, e2⟩ := one_line w
    simp only [ParserCard.line, Prod.mk.injEq, Option.some.injEq, true_and] at e1
    rw [toString_int_inj e1]; exact ⟨rfl, e2⟩
  | @bits h is id t order store o st l r s e bo bs =>
    intro is' d' b g g' info info' i i' db rest rest' w
    cases b <;> same r <;> first | (clear w g g'; odd) | skip
    rename_i bo' bs' _ e' _
    rw [e] at e'; cases e'
    cases bitOrder_unique bo bo'
    cases bitStore_unique bs bs'
    simp only [PD.card] at w
    obtain ⟨e1, e2⟩ := one_line w
    simp only [ParserCard.line, Prod.mk.injEq, Option.some.injEq, true_and] at e1
    rw [F.bits _ _ _ _ e1]; exact ⟨rfl, e2⟩

end Verif
