import Verif.Model.Data
/-!
# Hierarchically propagated data, `src/propagated.rs`
-/
namespace Verif

/-- `SpecialtySet`, `src/propagated.rs:17-41`. -/
structure SpecialtySet where
  compactAt : Option Nat := none
  hint : Hint := .none
  deriving DecidableEq, Repr

/-- `SpecialtySet::reject_compact`, `src/propagated.rs:54-60`. -/
def SpecialtySet.rejectCompact (s : SpecialtySet) : Res Unit :=
  match s.compactAt with
  | some id => failInternal (.unexpectedCompactInsides id)
  | none => .ok ()

/-- `SpecialtySet::update_from_path`, `src/propagated.rs:63-67`. -/
def SpecialtySet.updateFromPath (s : SpecialtySet) (t : Typ) : SpecialtySet :=
  match s.hint with
  | .none => { s with hint := Hint.fromPath t }
  | _ => s

/-- `SpecialtySet::forget_hint`, `src/propagated.rs:71-76`. -/
def SpecialtySet.forgetHint (s : SpecialtySet) : SpecialtySet :=
  match s.hint with
  | .chargeAssetTxPayment => s
  | _ => { s with hint := .none }

/-- `Checker`, `src/propagated.rs:98-106`. -/
structure Checker where
  specialtySet : SpecialtySet := {}
  cycleCheck : List Nat := []
  deriving DecidableEq, Repr

/-- `Checker::new`, `src/propagated.rs:110-115`. -/
def Checker.new : Checker := {}

/-- `Checker::forget_hint`, `src/propagated.rs:124-126`. -/
def Checker.forgetHint (c : Checker) : Checker :=
  { c with specialtySet := c.specialtySet.forgetHint }

/-- `Checker::reject_compact`, `src/propagated.rs:119-121`. -/
def Checker.rejectCompact (c : Checker) : Res Unit := c.specialtySet.rejectCompact

/-- `Checker::check_id`, `src/propagated.rs:173-180`; `push` appends at the end. -/
def Checker.checkId (c : Checker) (id : Nat) : Res Checker :=
  if c.cycleCheck.contains id then failInternal (.cyclicMetadata id)
  else .ok { c with cycleCheck := c.cycleCheck ++ [id] }

/-- Replacement of an absent hint, as in `src/propagated.rs:137-139` and
`src/decoding_sci.rs:1186-1188`. -/
def Checker.hintFromField (c : Checker) (f : Field) : Checker :=
  match c.specialtySet.hint with
  | .none => { c with specialtySet := { c.specialtySet with hint := Hint.fromField f } }
  | _ => c

/-- `Checker::update_for_field`, `src/propagated.rs:130-145`. -/
def Checker.updateForField (c : Checker) (f : Field) : Res Checker :=
  (c.hintFromField f).checkId f.ty

/-- `Checker::update_for_ty`, `src/propagated.rs:149-158`. -/
def Checker.updateForTy (c : Checker) (t : Typ) (id : Nat) : Res Checker := do
  let c ← c.checkId id
  .ok { c with specialtySet := c.specialtySet.updateFromPath t }

/-- `Checker::drop_cycle_check`, `src/propagated.rs:164-166`. -/
def Checker.dropCycleCheck (c : Checker) : Checker := { c with cycleCheck := [] }

/-- `Propagated`, `src/propagated.rs:192-200`. -/
structure Propagated where
  checker : Checker := {}
  info : List Info := []
  deriving DecidableEq, Repr

/-- `Propagated::new`, `src/propagated.rs:204-209`. -/
def Propagated.new : Propagated := {}

/-- `Propagated::from_ext_meta`, `src/propagated.rs:212-223`. -/
def Propagated.fromExtMeta (identifier : String) : Propagated :=
  { checker := { specialtySet := { hint := Hint.fromExtMeta identifier } } }

/-- `Propagated::with_checker`, `src/propagated.rs:226-231`. -/
def Propagated.withChecker (c : Checker) : Propagated := { checker := c }

/-- `Propagated::for_field`, `src/propagated.rs:235-243`. -/
def Propagated.forField (c : Checker) (f : Field) : Res Propagated := do
  let c ← c.updateForField f
  .ok { checker := c }

/-- `Propagated::for_ty`, `src/propagated.rs:247-256`. -/
def Propagated.forTy (c : Checker) (t : Typ) (id : Nat) : Res Propagated := do
  let c ← c.updateForTy t id
  .ok { checker := c }

/-- `Propagated::compact_at`, `src/propagated.rs:259-261`. -/
def Propagated.compactAt (p : Propagated) : Option Nat := p.checker.specialtySet.compactAt

/-- `Propagated::reject_compact`, `src/propagated.rs:265-267`. -/
def Propagated.rejectCompact (p : Propagated) : Res Unit := p.checker.specialtySet.rejectCompact

/-- `Propagated::forget_hint`, `src/propagated.rs:270-272`. -/
def Propagated.forgetHint (p : Propagated) : Propagated :=
  { p with checker := p.checker.forgetHint }

/-- `Propagated::add_info`, `src/propagated.rs:275-279`. -/
def Propagated.addInfo (p : Propagated) (i : Info) : Propagated :=
  if i.isEmpty then p else { p with info := p.info ++ [i] }

end Verif
