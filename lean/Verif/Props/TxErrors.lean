import Verif.Spec.TxErrors
import Verif.Props.Errors
import Verif.Props.Extensions
import Verif.Props.Extrinsic
import Verif.Props.Storage
/-!
# C56 errors of calls, extensions, transactions, extrinsics and storage entries are true
-/
namespace Verif
open Spec

variable {ME : Type} {M : Metadata ME} {R : Registry} {b : Buf}

/-- Every error has the property. -/
def Honor {ε α : Type} (P : ε → Prop) (r : Except (Out ε) α) : Prop := ∀ e, r = .error (.err e) → P e

namespace Honor
variable {ε α β : Type} {P : ε → Prop}

theorem ok (a : α) : Honor P (.ok a : Except (Out ε) α) := by intro e h; cases h
theorem panic : Honor P (.error .panic : Except (Out ε) α) := by intro e h; cases h
theorem err {e : ε} (h : P e) : Honor P (.error (.err e) : Except (Out ε) α) := by intro e h; cases h; assumption

theorem bind {x : Except (Out ε) α} {f : α → Except (Out ε) β} (hx : Honor P x)
    (hf : ∀ a, x = .ok a → Honor P (f a)) : Honor P (x >>= f) := by
  cases x with
  | error g => intro e h; rw [eerror_bind] at h; cases h; exact hx _ rfl
  | ok a => rw [eok_bind]; exact hf a rfl

theorem mapErr {r : Res α} {f : PErr → ε} (h : Honest (fun e => P (f e)) r) : Honor P (r.mapErr f) := by
  intro e he
  rcases r with (e' | _ | _) | a
  · cases he; exact h _ rfl
  · cases he
  · cases he
  · cases he

theorem mapOut {ε' : Type} {r : Except (Out ε') α} {f : ε' → ε} (h : Honor (fun e => P (f e)) r) :
    Honor P (Verif.mapOut f r) := by
  intro e he
  rcases r with (e' | _ | _) | a
  · cases he; exact h _ rfl
  · cases he
  · cases he
  · cases he

theorem mono {Q : ε → Prop} {r : Except (Out ε) α} (h : Honor P r) (hi : ∀ e, P e → Q e) : Honor Q r :=
  fun e he => hi e (h e he)

end Honor

theorem Honest.mono {α : Type} {P Q : PErr → Prop} {r : Res α} (h : Honest P r) (hi : ∀ e, P e → Q e) : Honest Q r :=
  fun e he => hi e (h e he)

theorem Spec.TrueOf.mono {start start' : Nat} {e : PErr} (h : TrueOf R b start e) (hs : start' ≤ start) :
    TrueOf R b start' e := by
  cases h with
  | outOfRange h1 h2 => exact .outOfRange (Nat.le_trans hs h1) h2
  | tooShort h1 h2 h3 => exact .tooShort (Nat.le_trans hs h1) h2 h3
  | memory h1 h2 => exact .memory h1 h2
  | noCompact h1 h2 h3 => exact .noCompact (Nat.le_trans hs h1) h2 h3
  | typeFailure h1 h2 h3 => exact .typeFailure (Nat.le_trans hs h1) h2 h3
  | enumVariant h1 h2 h3 h4 h5 => exact .enumVariant (Nat.le_trans hs h1) h2 h3 h4 h5
  | registry h => exact .registry h

/-- True of clean data, or the memory failed. -/
theorem tame_true {α : Type} {start : Nat} {r r' : Res α} (h : Tame b r r')
    (h' : Honest (TrueOf R b.clean start) r') : Honest (TrueOf R b start) r := by
  intro e he
  rcases h with ⟨⟨q, n, h1, h2⟩, h⟩ | h
  · rw [h] at he; cases he; exact .memory h1 h2
  · rw [h] at he; exact (h' e he).of_clean

theorem readSlice_true_any {start pos n : Nat} (hp : start ≤ pos) : Honest (TrueOf R b start) (b.readSlice pos n) :=
  tame_true (readSlice_tame _ _) (readSlice_true (b := b.clean) (reliable_ofBytes _) _ hp)

theorem readByte_true_any {start pos : Nat} (hp : start ≤ pos) : Honest (TrueOf R b start) (b.readByte pos) :=
  tame_true (readByte_tame _) (readByte_true (b := b.clean) (reliable_ofBytes _) hp)

theorem symbol_true {start id pos : Nat} {p : Propagated} (hp : start ≤ pos) (h1 : p.checker.cycleCheck = [])
    (h2 : p.checker.specialtySet.compactAt = none) : Honest (TrueOf R b start) (decode R b (.symbol id) pos p) :=
  decode_true_any hp ⟨(fun _ h => by cases h), (fun x h => by rw [h1] at h; cases h),
    (by rw [h2]; exact cmpOk_none)⟩

/-! ### Extensions -/

theorem extensionsLoop_true {start : Nat} {sel : SignedExt → Nat} {expected : Option Bytes} {signed : List SignedExt} :
    ∀ {pos : Nat}, start ≤ pos →
      Honor (TrueOfExtensions M b start expected) (extensionsLoop (ME := ME) M.types b sel signed pos) := by
  induction signed with
  | nil => intro pos _; exact .ok _
  | cons e es ih =>
    intro pos hp
    unfold extensionsLoop
    refine .bind (.mapErr ((symbol_true hp rfl rfl).mono fun _ h => .parsing h)) fun x hx => ?_
    rw [mapErr_ok] at hx
    obtain ⟨bs, -, h2, -⟩ := (decode_parses M.types b _ _).sound hx
    exact .bind (ih (by omega)) fun _ _ => .ok _

theorem update_true {c : CollectedExt} {pre l : List PD} {d : PD} {e : ExtErr} (hc : CollectedIs c pre)
    (h : c.update d = .error e) :
    (e = .eraTwice ∧ 2 ≤ (eras (pre ++ d :: l)).length) ∨
    (e = .genesisHashTwice ∧ 2 ≤ (genesisHashes (pre ++ d :: l)).length) ∨
    (e = .blockHashTwice ∧ 2 ≤ (blockHashes (pre ++ d :: l)).length) ∨
    (e = .specVersionTwice ∧ 2 ≤ (specVersions (pre ++ d :: l)).length) := by
  have e4 : (specVersions pre).length = c.specVersionPrinted.toList.length := by
    rw [← hc.version, List.length_map]
  have e1 := congrArg List.length hc.era
  have e2 := congrArg List.length hc.genesis
  have e3 := congrArg List.length hc.block
  have hl : ∀ {α : Type} {o : Option α}, o.isSome = true → o.toList.length = 1 := by
    intro α o ho; cases o <;> simp_all
  have hx : pre ++ d :: l = pre ++ ([d] ++ l) := rfl
  rw [hx, eras_append, eras_append, genesisHashes_append, genesisHashes_append, blockHashes_append,
    blockHashes_append, specVersions_append, specVersions_append]
  simp only [List.length_append]
  unfold CollectedExt.update at h
  split at h
  · split at h
    · rename_i hs; cases h; have := hl hs
      exact .inl ⟨rfl, by simp [eras] at e1 ⊢; omega⟩
    · cases h
  · split at h
    · rename_i hs; cases h; have := hl hs
      exact .inr (.inl ⟨rfl, by simp [genesisHashes] at e2 ⊢; omega⟩)
    · cases h
  · split at h
    · rename_i hs; cases h; have := hl hs
      exact .inr (.inr (.inl ⟨rfl, by simp [blockHashes] at e3 ⊢; omega⟩))
    · cases h
  · split at h
    · rename_i hs; cases h; have := hl hs
      exact .inr (.inr (.inr ⟨rfl, by simp [specVersions] at e4 ⊢; omega⟩))
    · cases h
  · cases h

theorem collect_true {l pre : List PD} {c : CollectedExt} {e : ExtErr} (hc : CollectedIs c pre)
    (h : l.foldlM CollectedExt.update c = .error e) :
    (e = .eraTwice ∧ 2 ≤ (eras (pre ++ l)).length) ∨
    (e = .genesisHashTwice ∧ 2 ≤ (genesisHashes (pre ++ l)).length) ∨
    (e = .blockHashTwice ∧ 2 ≤ (blockHashes (pre ++ l)).length) ∨
    (e = .specVersionTwice ∧ 2 ≤ (specVersions (pre ++ l)).length) := by
  induction l generalizing pre c with
  | nil => cases h
  | cons d l ih =>
    rw [List.foldlM_cons] at h
    cases hu : c.update d with
    | error e' => rw [hu] at h; cases h; exact update_true hc hu
    | ok c1 =>
      rw [hu, eok_bind] at h
      have := ih (update_ok hc hu) h
      simpa using this

theorem checkExtensions_true {exts : List ED} {version : String} {expected : Option Bytes} :
    Honor (TrueOfContent exts version expected) (checkExtensions (ME := ME) exts version expected) := by
  unfold checkExtensions
  rw [collectLoop_eq]
  split
  · rename_i c hc
    have hi := collect_ok collectedIs_empty hc
    simp only [List.nil_append] at hi
    have himm : Honor (TrueOfContent exts version expected) (checkImmortal (ME := ME) c) := by
      unfold checkImmortal
      split
      · rename_i h1
        split
        · rename_i h h2
          split
          · rename_i g h3
            split
            · rename_i hne
              refine .err (.immortalHashMismatch (g := g) (h := h) ?_ ?_ ?_ hne)
              · rw [hi.era, h1]; rfl
              · rw [hi.genesis, h3]; rfl
              · rw [hi.block, h2]; rfl
            · exact .ok _
          · exact .ok _
        · exact .ok _
      · exact .ok _
    unfold checkCollected
    split
    · rename_i found hf
      have hv := hi.version
      rw [hf] at hv
      simp only [Option.toList_some, List.map_eq_singleton_iff] at hv
      obtain ⟨v, hv1, hv2⟩ := hv
      split
      · rename_i hne
        subst hv2
        exact .err (.wrongSpecVersion hv1 hne)
      · split
        · rename_i g hg
          split
          · split
            · rename_i hne
              exact .err (.wrongGenesisHash (by rw [hi.genesis, hg]; rfl) rfl hne)
            · exact himm
          · exact himm
        · rename_i hg
          exact .err (.noGenesisHash (by rw [hi.genesis, hg]; rfl))
    · rename_i hf
      have hv := hi.version
      rw [hf] at hv
      exact .err (.noSpecVersion (by simpa using hv))
  · rename_i e he
    have := collect_true collectedIs_empty he
    simp only [List.nil_append] at this
    rcases this with ⟨rfl, h⟩ | ⟨rfl, h⟩ | ⟨rfl, h⟩ | ⟨rfl, h⟩
    · exact .err (.eraTwice h)
    · exact .err (.genesisHashTwice h)
    · exact .err (.blockHashTwice h)
    · exact .err (.specVersionTwice h)

/-- **C56.** An error of `decode_extensions_unmarked` is true. -/
theorem decodeExtensionsUnmarked_errors_true {pos : Nat} {expected : Option Bytes} {e : SErr ME}
    (h : decodeExtensionsUnmarked M b pos expected = .error (.err e)) : TrueOfExtensions M b pos expected e := by
  revert e
  show Honor _ _
  unfold decodeExtensionsUnmarked
  refine .bind (.mapOut fun e he => .noExtensions he) fun signed hs => ?_
  rw [mapOut_ok] at hs
  refine .bind (extensionsLoop_true (Nat.le_refl _)) fun x hx => ?_
  obtain ⟨ds, q⟩ := x
  obtain ⟨bs, g1, rfl, g3⟩ := extensionsLoop_sound hx
  dsimp only
  refine .bind (extensionsLoop_true (by omega)) fun y hy => ?_
  obtain ⟨ds', q'⟩ := y
  obtain ⟨bs', g1', rfl, g3'⟩ := extensionsLoop_sound hy
  dsimp only
  have hall := g1.append g1'
  have hit : ItemsAre M.types (extItems signed) (ds ++ ds') (bs ++ bs') := g3.append g3'
  have hat : pos ≤ b.bytes.length → At b.bytes pos (bs ++ bs') := fun h => hall.at h
  have hlen : pos + bs.length + bs'.length = pos + (bs ++ bs').length := by simp; omega
  rw [hlen]
  split
  · rename_i hne
    by_cases hp : pos ≤ b.bytes.length
    · have := (hat hp).le
      exact .err (.notUsed hs hit (hat hp) (by unfold Buf.len at hne; omega))
    · have hnil : bs ++ bs' = [] := by
        rcases hall with h | h
        · exact h
        · have := h.le; omega
      rw [hnil]
      exact .err (.pastEnd (by omega))
  · rename_i heq
    have heq : pos + (bs ++ bs').length = b.bytes.length := by simpa [Buf.len] using heq
    refine .bind (.mapOut fun e he => .noVersion he) fun spec hv => ?_
    rw [mapOut_ok] at hv
    refine .bind (checkExtensions_true.mono fun e he => ?_) fun _ _ => .ok _
    refine .content hs hv (by omega) ?_ he
    obtain ⟨pre, p1, p2⟩ := at_to_end (hat (by omega)) heq
    rw [p1, List.drop_left' p2]
    exact hit

/-! ### Calls -/

theorem run_not_call {id : Nat} {p : Propagated} {d : ED} {bs : Bytes} (h : Run R (.symbol id) p d bs)
    (hn : d.data.asCall = none) (c : Call) : ¬ IsCall R id c bs := by
  rintro ⟨t, i, j, inner, v, ps, h1, hpal, -, -, -, -, -, rfl⟩
  have hpal' := hpal
  obtain ⟨hsp, vs, _, _, _, hd, _⟩ := hpal'
  have hh := hinted_pallet.2 hsp
  obtain ⟨ty, id', g1, g2⟩ := run_iff.1 h
  obtain ⟨t', ht, g1⟩ := bind_ok.1 g1
  cases g1
  rw [get_ok.1 ht] at h1; cases h1
  generalize hbs : i :: j :: ps.bytes = bs at g2
  cases g2 with
  | pallet _ _ hh' =>
    rw [hh] at hh'
    cases hh'
    cases hn
  | fixed hh' | era hh' | h256 hh' | per hh' | perCompact hh' | signature _ _ hh' => rw [hh] at hh'; cases hh'
  | ofDef ho h =>
    cases h with
    | composite hd' | sequence hd' | array hd' | tuple hd' | primitive hd' | compact hd' | bits hd' =>
      rw [hd] at hd'; cases hd'
    | emptyEnum => cases hbs
    | enum hd' _ _ hsn =>
      cases hbs
      obtain ⟨info, hp⟩ := (enumSpecial_pallet hd').2 hpal
      rw [hp] at hsn
      cases hsn

/-- **C56.** An error of `decode_as_call_unmarked` is true. -/
theorem decodeAsCallUnmarked_errors_true {pos : Nat} {e : SErr ME}
    (h : decodeAsCallUnmarked M b pos = .error (.err e)) : TrueOfCall M b pos e := by
  revert e
  show Honor _ _
  unfold decodeAsCallUnmarked
  refine .bind (.mapOut fun e he => .noCallTy he) fun id hid => ?_
  rw [mapOut_ok] at hid
  refine .bind (.mapErr ((symbol_true (Nat.le_refl _) rfl rfl).mono fun _ h => .parsing h)) fun x hx => ?_
  rw [mapErr_ok] at hx
  obtain ⟨d, q⟩ := x
  obtain ⟨bs, g1, rfl, g3⟩ := (decode_parses M.types b _ _).sound hx
  dsimp only
  split
  · exact .ok _
  · rename_i hn
    exact .err (.notACall hid (run_sound.symbol g3) (fun h => g1.at h) (run_not_call g3 hn))

theorem frame_of_mark {m : Marked} (hm : mark (ME := ME) b = .ok m) :
    ∃ call ext, Frame b.bytes call ext ∧ m.callStart = (compactEncode call.length).length ∧
      m.extensionsStart = (compactEncode call.length).length + call.length ∧
      b.bytes.take m.extensionsStart = compactEncode call.length ++ call := by
  obtain ⟨_, call, ext, h1, h2, h3, h4⟩ := mark_partition hm
  refine ⟨call, ext, ⟨h1, h2⟩, h3, by rw [h4, h3], ?_⟩
  rw [h4, h3, h2, List.take_left' (by simp)]

/-- **C56.** An error of `decode_as_call` is true. -/
theorem decodeAsCall_errors_true {m : Marked} {e : SErr ME} (hm : mark (ME := ME) b = .ok m)
    (h : decodeAsCall M m = .error (.err e)) :
    ∃ call ext, Frame b.bytes call ext ∧ m.extensionsStart = (compactEncode call.length).length + call.length ∧
      TrueOfMarkedCall M b call ext e := by
  obtain ⟨call, ext, hf, h3, h4, h5⟩ := frame_of_mark hm
  refine ⟨call, ext, hf, h4, ?_⟩
  revert e
  show Honor _ _
  unfold decodeAsCall
  rw [(dataNoExtensions_eq hm).1, eok_bind, h5, h3]
  refine .bind (fun e he => .call (decodeAsCallUnmarked_errors_true he)) fun x hx => ?_
  obtain ⟨c, q⟩ := x
  dsimp only
  obtain ⟨id, g1, g2, g3, g4⟩ := decodeAsCallUnmarked_sound hx
  split
  · rename_i hne
    revert g2 g3 g4
    generalize between _ _ q = bs
    intro g2 g3 g4
    have hle := g3.le
    obtain ⟨pre, post, p1, p2⟩ := g3
    simp only [List.length_append] at hle
    dsimp only at p1
    have hcall : call = bs ++ post := by
      have := congrArg (List.drop (compactEncode call.length).length) p1
      rw [List.drop_left' rfl, List.append_assoc, List.drop_left' p2] at this
      exact this
    have hpost : post ≠ [] := by
      rintro rfl
      rw [List.append_nil] at hcall
      rw [h4, hcall] at hne
      rw [hcall] at g4
      omega
    rw [g4, h4]
    exact .err (.notUsed g1 g2 hpost hcall)
  · exact .ok _

/-! ### Transactions -/

theorem faulty_failed (h : b.Faulty) : MemoryFailed b := h

theorem cut_error {α : Type} {r : Res α} {e : SErr ME} (h : cut r = .error (.err e)) :
    e = .cutSignable ∧ ∃ e', r = .error (.err e') := by
  rcases r with (e' | _ | _) | a
  · cases h; exact ⟨rfl, _, rfl⟩
  · cases h
  · cases h
  · cases h

/-- **C56.** An error of `mark` is true. -/
theorem mark_errors_true {e : SErr ME} (h : mark (ME := ME) b = .error (.err e)) :
    e = .cutSignable ∧ ((∀ call ext, ¬ Frame b.bytes call ext) ∨ MemoryFailed b) := by
  have he : e = .cutSignable := by
    rcases mark_cases (ME := ME) b with ⟨m, hm⟩ | hm
    · rw [hm] at h; cases h
    · rw [hm] at h; cases h; rfl
  refine ⟨he, ?_⟩
  by_cases hf : MemoryFailed b
  · exact .inr hf
  · refine .inl fun call ext ⟨h1, h2⟩ => ?_
    have hc : mark (ME := ME) b.clean = .ok _ := mark_complete (b := b.clean) (reliable_ofBytes _) h1 h2
    have t1 : getCompact (compactUInt .u32) b 0 = getCompact (compactUInt .u32) b.clean 0 :=
      (getCompact_tame (b := b) (compactUInt .u32) 0).resolve_left fun ⟨h, _⟩ => hf h
    have t2 : ∀ p n, b.readSlice p n = b.clean.readSlice p n := fun p n =>
      (readSlice_tame (b := b) p n).resolve_left fun ⟨h, _⟩ => hf h
    unfold mark at h hc
    rw [t1] at h
    obtain ⟨x, g1, hc⟩ := ebind_ok.1 hc
    rw [g1, eok_bind] at h
    dsimp only at h hc
    rw [t2] at h
    obtain ⟨y, g2, hc⟩ := ebind_ok.1 hc
    rw [g2, eok_bind] at h
    cases h

/-- **C56.** An error of `parse_transaction` is true. -/
theorem parseTransaction_errors_true {expected : Option Bytes} {e : SErr ME}
    (h : parseTransaction M b expected = .error (.err e)) : TrueOfTransaction M b expected e := by
  revert e
  show Honor _ _
  unfold parseTransaction
  refine .bind (fun e he => ?_) fun m hm => .bind (fun e he => ?_) fun exts _ => ?_
  · obtain ⟨rfl, h⟩ := mark_errors_true he
    exact .cut h
  · obtain ⟨call, ext, hf, h3, h4, h5⟩ := frame_of_mark hm
    unfold decodeExtensions at he
    rw [h4, (mark_partition hm).1] at he
    exact .extensions hf (decodeExtensionsUnmarked_errors_true he)
  · split
    · exact .ok _
    · exact .ok _
    · exact .panic
    · intro e h; cases h

/-- **C56.** The error of the call in the result of `parse_transaction` is true. -/
theorem parseTransaction_call_errors_true {expected : Option Bytes} {t : TransactionParsed ME} {e : SErr ME}
    (h : parseTransaction M b expected = .ok t) (he : t.callResult = .error e) :
    ∃ call ext, Frame b.bytes call ext ∧ TrueOfMarkedCall M b call ext e := by
  unfold parseTransaction at h
  obtain ⟨m, hm, h⟩ := ebind_ok.1 h
  obtain ⟨exts, _, h⟩ := ebind_ok.1 h
  split at h
  · cases h; cases he
  · rename_i e' he'
    cases h
    cases he
    obtain ⟨call, ext, h1, _, h2⟩ := decodeAsCall_errors_true hm he'
    exact ⟨call, ext, h1, h2⟩
  · cases h
  · cases h

/-- **C56.** An error of `parse_transaction_unmarked` is true of the call at the start, or of the
extensions after a call. -/
theorem parseTransactionUnmarked_errors_true {expected : Option Bytes} {e : SErr ME}
    (h : parseTransactionUnmarked M b expected = .error (.err e)) :
    TrueOfCall M b 0 e ∨ ∃ id c call ext, M.callTy = .ok id ∧ IsCall M.types id c call ∧ b.bytes = call ++ ext ∧
      TrueOfExtensions M b call.length expected e := by
  revert e
  show Honor _ _
  unfold parseTransactionUnmarked
  refine .bind (fun e he => .inl (decodeAsCallUnmarked_errors_true he)) fun x hx => ?_
  obtain ⟨c, q⟩ := x
  obtain ⟨id, g1, g2, g3, g4⟩ := decodeAsCallUnmarked_sound hx
  revert g2 g3 g4
  generalize between b 0 q = bs
  intro g2 g3 g4
  obtain ⟨pre, post, p1, p2⟩ := g3
  have : pre = [] := List.length_eq_zero_iff.1 p2
  subst this
  rw [Nat.zero_add] at g4
  subst g4
  dsimp only
  exact .bind (fun e he => .inr ⟨id, c, bs, post, g1, g2, by simpa using p1,
    decodeExtensionsUnmarked_errors_true he⟩) fun _ _ => .ok _

/-! ### Unchecked extrinsics -/

section
variable {M : CompleteMetadata ME}

theorem extrinsicPart_true {start id pos : Nat} (hp : start ≤ pos) :
    Honor (fun e : UErr ME => ∃ e', e = .parsing e' ∧ TrueOf R b start e') (extrinsicPart (ME := ME) R b id pos) :=
  .mapErr ((symbol_true hp rfl rfl).mono fun e h => ⟨e, rfl, h⟩)

theorem extrinsicCall_true {start id pos : Nat} (hp : start ≤ pos) (hpos : pos ≤ b.bytes.length) :
    Honor (fun e : UErr ME => (∃ e', e = .parsing e' ∧ TrueOf R b start e') ∨
      (e = .unexpectedCallTy id ∧ ∃ q v bs, start ≤ q ∧ Enc R false id v bs ∧ At b.bytes q bs ∧
        ∀ c, ¬ IsCall R id c bs)) (extrinsicCall (ME := ME) R b id pos) := by
  unfold extrinsicCall
  refine .bind ((extrinsicPart_true hp).mono fun e h => .inl h) fun x hx => ?_
  unfold extrinsicPart decodeAsTypeAtPosition at hx
  rw [mapErr_ok] at hx
  obtain ⟨d, q⟩ := x
  obtain ⟨bs, g1, rfl, g3⟩ := (decode_parses R b _ _).sound hx
  dsimp only
  split
  · exact .ok _
  · rename_i hn
    exact .err (.inr ⟨rfl, pos, _, bs, hp, run_sound.symbol g3, g1.at hpos, run_not_call g3 hn⟩)

theorem Spec.At.from {data bs pre : Bytes} {q : Nat} (h : At data q bs) (hq : pre.length ≤ q) {rest : Bytes}
    (hd : data = pre ++ rest) : ∃ front more, rest = front ++ bs ++ more := by
  obtain ⟨p, m, h1, h2⟩ := h
  refine ⟨p.drop pre.length, m, ?_⟩
  have := congrArg (List.drop pre.length) (hd.symm.trans h1)
  rw [List.drop_left' rfl, List.append_assoc, List.drop_append_of_le_length (by omega)] at this
  rw [this, List.append_assoc]

/-- **C56.** An error of `decode_as_unchecked_extrinsic` is true. -/
theorem decodeUncheckedExtrinsic_errors_true {e : UErr ME} (h : decodeUncheckedExtrinsic M b = .error (.err e)) :
    TrueOfExtrinsic M b e := by
  revert e
  show Honor _ _
  unfold decodeUncheckedExtrinsic
  refine .bind (.mapOut fun e he => .noParams he) fun params hparams => ?_
  rw [mapOut_ok] at hparams
  refine .bind (.mapErr fun e he => ?_) fun x hx => ?_
  · by_cases hf : MemoryFailed b
    · exact .noLength (.inr hf)
    · refine .noLength (.inl fun n hn hat => ?_)
      have t1 : getCompact (compactUInt .u32) b 0 = getCompact (compactUInt .u32) b.clean 0 :=
        (getCompact_tame (b := b) (compactUInt .u32) 0).resolve_left fun ⟨h, _⟩ => hf h
      rw [t1, getCompact_complete (w := .u32) (b := b.clean) (reliable_ofBytes _) (v := n)
        (by simpa [UW.bytes] using hn) hat] at he
      cases he
  · obtain ⟨n, start⟩ := x
    rw [mapErr_ok] at hx
    obtain ⟨g1, g2, g3⟩ := getCompact_sound hx
    have g1 : n < 2 ^ 32 := by simpa [UW.bytes] using g1
    rw [Nat.zero_add] at g3
    obtain ⟨pre, rest, p1, p2⟩ := g2
    have : pre = [] := List.length_eq_zero_iff.1 p2
    subst this
    rw [List.nil_append] at p1
    have hlen : b.bytes.length = start + rest.length := by rw [p1, g3]; simp
    dsimp only
    unfold Buf.len
    split
    · rename_i hlt
      exact .err (.tooShort g1 p1 (by omega) (by omega))
    split
    · rename_i hgt
      have hl : (rest.take n).length = n := by simp; omega
      have := TrueOfExtrinsic.tooLong (M := M) (b := b) (body := rest.take n) (more := rest.drop n)
        (by omega) (by rw [hl, List.append_assoc, List.take_append_drop]; exact p1)
        (by intro h; have := congrArg List.length h; simp at this; omega)
      rw [hl, List.length_append, hl, ← g3] at this
      exact .err this
    · have hn : n = rest.length := by omega
      subst hn
      have htrue : ∀ {s : Nat} {e : PErr}, start ≤ s → TrueOf M.types b s e → TrueOfExtrinsic M b (.parsing e) :=
        fun hs h => .parsing g1 p1 (h.mono (by omega))
      refine .bind (.mapErr ((readByte_true_any (Nat.le_refl _)).mono fun e h => htrue (Nat.le_refl _) h))
        fun vb hvb => ?_
      rw [mapErr_ok] at hvb
      obtain ⟨body, hbody⟩ : ∃ body, rest = vb :: body := by
        have hv := (at_iff.1 (readByte_ok hvb)).2
        rw [p1, List.drop_left' g3.symm] at hv
        match rest, hv with
        | x :: body, hv => exact ⟨body, by simp at hv; rw [hv]⟩
        | [], hv => simp at hv
      subst hbody
      rw [List.length_cons] at g1 p1 g3 hlen
      refine .bind (.mapOut fun e he => .noVersion he) fun version hv => ?_
      rw [mapOut_ok] at hv
      have hcall : ∀ {pos : Nat}, start + 1 ≤ pos → pos ≤ b.bytes.length →
          Honor (TrueOfExtrinsic M b) (extrinsicCall (ME := ME) M.types b params.callTy pos) := by
        intro pos hp hpos
        refine (extrinsicCall_true hp hpos).mono fun e he => ?_
        rcases he with ⟨e', rfl, h⟩ | ⟨rfl, q, v, bs, h1, h2, h3, h4⟩
        · exact htrue (by omega) h
        · obtain ⟨front, more, hm⟩ := h3.from (pre := compactEncode (body.length + 1) ++ [vb]) (rest := body)
            (by simp; omega) (by rw [p1]; simp)
          exact .notACall g1 p1 hparams hm h2 h4
      have hpart : ∀ {id pos : Nat}, start + 1 ≤ pos →
          Honor (TrueOfExtrinsic M b) (extrinsicPart (ME := ME) M.types b id pos) := fun hp =>
        (extrinsicPart_true hp).mono fun e ⟨e', h, h'⟩ => by rw [h]; exact htrue (by omega) h'
      unfold extrinsicContent
      split
      · rename_i hne
        exact .err (.version g1 p1 hv ((version_bits _ _).1 hne))
      split
      · exact .bind (hcall (Nat.le_refl _) (by omega)) fun _ _ => .ok _
      · refine .bind (hpart (Nat.le_refl _)) fun x hx => ?_
        obtain ⟨address, q1⟩ := x
        have k1 := extrinsicPart_ok hx
        unfold Buf.len at k1
        dsimp only
        refine .bind (hpart (by omega)) fun x hx => ?_
        obtain ⟨signature, q2⟩ := x
        have k2 := extrinsicPart_ok hx
        unfold Buf.len at k2
        dsimp only
        refine .bind (hpart (by omega)) fun x hx => ?_
        obtain ⟨extra, q3⟩ := x
        have k3 := extrinsicPart_ok hx
        unfold Buf.len at k3
        dsimp only
        exact .bind (hcall (by omega) (by omega)) fun _ _ => .ok _

end

/-! ### Storage entries -/

section
variable {H : HashFns} {key value : Buf}

theorem Spec.At.split {data x : Bytes} {pos : Nat} (h : At data pos x) :
    ∃ pre more, data = pre ++ x ++ more ∧ pre.length = pos := h

/-- An error while reading the key. -/
def KeyErr (H : HashFns) (R : Registry) (key : Buf) (h : Hasher) (ty : Nat) (e : StErr) : Prop :=
  (∃ e', e = .parsingKey e' ∧ TrueOf R key 32 e') ∨
  (e = .keyPartHashMismatch ∧ ∃ n f pre hash k more v, hasherConcat H h = some (n, f) ∧
    key.bytes = pre ++ hash ++ k ++ more ∧ 32 ≤ pre.length ∧ hash.length = n ∧ Enc R false ty v k ∧ hash ≠ f k)

theorem checkHash_true {h : Hasher} {n : Nat} {f : Bytes → Bytes} {ty pos : Nat} (hc : hasherConcat H h = some (n, f))
    (hp : 32 ≤ pos) : Honor (KeyErr H R key h ty) (checkHash R n f ty key pos) := by
  unfold checkHash
  refine .bind (.mapErr ((readSlice_true_any hp).mono fun e h => .inl ⟨e, rfl, h⟩)) fun s hs => ?_
  rw [mapErr_ok] at hs
  obtain ⟨g1, g2⟩ := readSlice_ok hs
  have hle := g1.le
  rw [if_neg (by simp [g2])]
  refine .bind (.mapErr ((symbol_true (by omega) rfl rfl).mono fun e h => .inl ⟨e, rfl, h⟩)) fun x hx => ?_
  obtain ⟨d, q⟩ := x
  rw [mapErr_ok] at hx
  obtain ⟨k, k1, rfl, k3⟩ := (decode_parses R key _ _).sound hx
  have hat : At key.bytes (pos + n) k := k1.at (by omega)
  dsimp only
  rw [show pos + n + k.length - (pos + n) = k.length by omega]
  cases hs : key.readSlice (pos + n) k.length with
  | error e => exact .panic
  | ok bs =>
    obtain ⟨m1, m2⟩ := readSlice_ok hs
    have : bs = k := m1.unique hat m2
    subst this
    dsimp only
    split
    · rename_i hne
      refine .err (.inr ⟨rfl, ?_⟩)
      obtain ⟨pre, more, q1, q2⟩ := at_append.2 ⟨g1, by rw [g2]; exact hat⟩
      exact ⟨n, f, pre, s, bs, more, _, hc, by rw [q1]; simp, by omega, g2, run_sound.symbol k3, hne⟩
    · exact .ok _

theorem cutHash_true {h : Hasher} {kind : HashKind} {ty pos : Nat} (hp : 32 ≤ pos) :
    Honor (KeyErr H R key h ty) (cutHash kind ty key pos) := by
  unfold cutHash
  refine .bind (.mapErr ((readSlice_true_any hp).mono fun e h => .inl ⟨e, rfl, h⟩)) fun s hs => ?_
  split
  · exact .panic
  · exact .ok _

theorem processHasher_true {h : Hasher} {ty pos : Nat} (hp : 32 ≤ pos) :
    Honor (KeyErr H R key h ty) (processHasher H R h ty key pos) := by
  cases h
  case blake2_128Concat => exact checkHash_true rfl hp
  case twox64Concat => exact checkHash_true rfl hp
  case identity =>
    exact .bind (.mapErr ((symbol_true hp rfl rfl).mono fun e h => .inl ⟨e, rfl, h⟩)) fun _ _ => .ok _
  all_goals exact cutHash_true hp

theorem hashersLoop_true : ∀ {hs : List Hasher} {tys : List Nat} {pos : Nat}, 32 ≤ pos → pos ≤ key.bytes.length →
    Honor (fun e => ∃ h ty, (h, ty) ∈ hs.zip tys ∧ KeyErr H R key h ty e) (hashersLoop H R key hs tys pos)
  | [], _, _, _, _ => .ok _
  | _ :: _, [], _, _, _ => .ok _
  | h :: hs, ty :: tys, pos, hp, hl => by
    unfold hashersLoop
    refine .bind ((processHasher_true hp).mono fun e he => ⟨h, ty, by simp, he⟩) fun x hx => ?_
    obtain ⟨part, q⟩ := x
    obtain ⟨bs, _, h2, rfl⟩ := processHasher_ok (by unfold Buf.len; exact hl) hx
    have := h2.le
    dsimp only
    refine .bind ((hashersLoop_true (by omega) this).mono fun e ⟨h', ty', h1, h2⟩ => ⟨h', ty', by simp [h1], h2⟩)
      fun _ _ => .ok _

theorem Spec.TrueOfStorage.ofKey {entry : Entry} {hashers : List Hasher} {keyTy valueTy : Nat}
    (hty : entry.ty = .map hashers keyTy valueTy) {h : Hasher} {ty : Nat} (ht : HashedTy R hashers keyTy h ty)
    {e : StErr} (he : KeyErr H R key h ty e) : TrueOfStorage H R key value entry e := by
  rcases he with ⟨e', rfl, h⟩ | ⟨rfl, n, f, pre, hash, k, more, v, h1, h2, h3, h4, h5, h6⟩
  · exact .key h
  · exact .mismatch hty ht h1 h2 h3 h4 h5 h6

theorem processKeyMapped_true {entry : Entry} {hashers : List Hasher} {keyTy valueTy : Nat}
    (hty : entry.ty = .map hashers keyTy valueTy) (hl : 32 ≤ key.bytes.length) :
    Honor (TrueOfStorage H R key value entry) (processKeyMapped H R hashers keyTy key 32) := by
  have hend : ∀ {k : KeyData} {bs : Bytes}, KeyIs H R hashers keyTy k bs → At key.bytes 32 bs →
      Honor (TrueOfStorage H R key value entry)
        (if 32 + bs.length = key.len then .ok k else .error (.err .keyPartsUnused)) := by
    intro k bs hk hat
    split
    · exact .ok _
    · rename_i hne
      obtain ⟨pre, more, h1, h2⟩ := hat
      refine .err (.unused hty h1 h2 hk ?_)
      rintro rfl
      exact hne (by unfold Buf.len; rw [h1]; simp [h2])
  by_cases hn : hashers.length = 1
  · obtain ⟨h, rfl⟩ := List.length_eq_one_iff.1 hn
    rw [processKeyMapped_one]
    refine .bind ((processHasher_true (Nat.le_refl _)).mono fun e he => .ofKey hty (.inl ⟨rfl, rfl⟩) he) fun x hx => ?_
    obtain ⟨part, q⟩ := x
    obtain ⟨bs, h1, h2, rfl⟩ := processHasher_ok (by unfold Buf.len; exact hl) hx
    exact hend (k := .singleHash part) ⟨h, rfl, h1⟩ h2
  · rw [processKeyMapped_many hn]
    refine .bind (.mapErr ((get_true _).mono fun e h => .key h)) fun t ht => ?_
    rw [mapErr_ok, Registry.get_ok] at ht
    split
    · rename_i elems hel
      split
      · rename_i hne
        exact .err (.number hty hn ht hel hne)
      · rename_i hlen
        have hlen : elems.length = hashers.length := by simpa using hlen
        refine .bind ((hashersLoop_true (Nat.le_refl _) hl).mono fun e ⟨h, ty, h1, h2⟩ =>
          .ofKey hty (.inr ⟨hn, t, elems, ht, hel, hlen, h1⟩) h2) fun x hx => ?_
        obtain ⟨parts, q⟩ := x
        obtain ⟨bs, g1, g2, rfl⟩ := hashersLoop_ok hlen (by unfold Buf.len; exact hl) hx
        exact hend (k := .tupleHash parts (Info.fromTy t)) ⟨hn, t, elems, ht, hel, rfl, g1⟩ g2
    · rename_i hnt
      exact .err (.notATuple hty hn ht fun elems h => hnt elems h)

theorem decodeAll_storage_true {entry : Entry} {ty : Nat}
    (hty : entry.ty = .plain ty ∨ ∃ hashers keyTy, entry.ty = .map hashers keyTy ty) :
    Honor (TrueOfStorage H R key value entry) ((decodeAllAsType R value ty).mapErr .parsingValue) := by
  refine .mapErr fun e he => ?_
  rcases decodeAll_errors_true he with h | ⟨p, d, rfl, hp, h⟩
  · exact .value h
  · obtain ⟨bs, g1, rfl, g3⟩ := (decode_parses R value _ _).sound h
    obtain ⟨pre, more, h1, h2⟩ := g1.at (Nat.zero_le _)
    have : pre = [] := List.length_eq_zero_iff.1 h2
    subst this
    rw [Nat.zero_add] at hp ⊢
    refine .valueUnused hty h1 (run_sound.symbol g3) ?_
    rintro rfl
    rw [h1] at hp
    simp at hp

/-- **C56.** An error of `decode_as_storage_entry` is true. -/
theorem decodeStorageEntry_errors_true {entry : Entry} {e : StErr}
    (h : decodeStorageEntry H R key value entry = .error (.err e)) : TrueOfStorage H R key value entry e := by
  revert e
  show Honor _ _
  unfold decodeStorageEntry
  dsimp only
  unfold Buf.len
  split
  · rename_i hs
    exact .err (.short hs)
  split
  · rename_i ty hty
    split
    · rename_i hne
      exact .err (.plainLong hty (by omega))
    · exact .bind (decodeAll_storage_true (.inl hty)) fun _ _ => .ok _
  · rename_i hashers keyTy valueTy hty
    refine .bind (processKeyMapped_true hty (by omega)) fun _ _ => ?_
    exact .bind (decodeAll_storage_true (.inr ⟨_, _, hty⟩)) fun _ _ => .ok _

end

/-! ### Examples -/

/-- Wrong spec version: 8 in the data, 9 in the metadata. -/
example : parseTransaction Example.chain (Buf.ofBytes ([28] ++ Example.callBytes ++ [0] ++ [8, 0, 0, 0] ++
    Example.genesis ++ Example.genesis)) none = .error (.err (.wrongSpecVersion "8" "9")) := rfl

/-- Immortal, with a block hash that is not the genesis hash. -/
example : parseTransaction Example.chain (Buf.ofBytes ([28] ++ Example.callBytes ++ [0] ++ [9, 0, 0, 0] ++
    Example.genesis ++ List.replicate 32 1)) none = .error (.err .immortalHashMismatch) := rfl

/-- One byte too many. -/
example : parseTransaction Example.chain (Buf.ofBytes ([28] ++ Example.callBytes ++ Example.extBytes ++ [0])) none =
    .error (.err (.someDataNotUsedExtensions 77)) := rfl

example : TrueOfTransaction Example.chain (Buf.ofBytes ([28] ++ Example.callBytes ++ Example.extBytes ++ [0])) none
    (.someDataNotUsedExtensions 77) := parseTransaction_errors_true rfl

/-- A call longer than announced. -/
example : parseTransaction (ME := Unit) Example.chain (Buf.ofBytes [28, 1, 2]) none = .error (.err .cutSignable) := rfl

/-- A storage key that is too short. -/
example (H : HashFns) : decodeStorageEntry H Example.chain.types (Buf.ofBytes [1, 2, 3]) (Buf.ofBytes [0])
    ⟨.plain 0, []⟩ = .error (.err .keyShorterThanPrefix) := rfl

/-- A value with one byte too many. -/
example (H : HashFns) : decodeStorageEntry H Example.chain.types (Buf.ofBytes (List.replicate 32 7)) (Buf.ofBytes [0, 1])
    ⟨.plain 0, []⟩ = .error (.err (.parsingValue (.someDataNotUsedBlob 1))) := rfl

end Verif
