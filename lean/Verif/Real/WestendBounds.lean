import Verif.Real.WestendChecks
import Verif.Spec.Weight
import Verif.Spec.Cost
/-!
# Bounds for Westend 9111

Tables of what the types need at most, in the sense of `Spec/Weight.lean` and `Spec/Cost.lean`. How they were found
(by `typeCost`, `typeSize`) does not matter: the kernel checks that they are enough.
-/
set_option Elab.async false
namespace Verif.Westend
open Spec

/-- Cost of the accesses for each type of `for_tests/westend9111`, up to the first enum or vector. -/
def costs : List Nat :=
  [14000, 13600, 400, 4000, 400, 2000, 400, 1600, 400, 14000, 400, 800, 400, 400, 2400, 400, 400, 1200, 400, 1600,
   400, 400, 1600, 400, 400, 400, 400, 400, 400, 400, 400, 400, 400, 7200, 400, 400, 400, 15200, 14400, 14000, 400,
   14400, 14000, 400, 16800, 2400, 800, 400, 15200, 400, 400, 400, 400, 400, 1200, 400, 400, 400, 400, 400, 400, 400,
   400, 1200, 400, 400, 400, 400, 400, 400, 141600, 127200, 800, 14400, 27200, 26800, 26400, 14400, 800, 800, 800,
   400, 400, 400, 400, 400, 2000, 400, 400, 400, 400, 400, 1200, 400, 400, 800, 400, 800, 8800, 400, 400, 800, 400,
   400, 800, 400, 1200, 400, 400, 400, 4000, 400, 400, 1200, 400, 800, 400, 400, 400, 400, 400, 400, 400, 400, 400,
   400, 400, 400, 400, 400, 1600, 400, 400, 800, 400, 1200, 400, 7600, 6400, 2000, 400, 2000, 1600, 1200, 3600, 800,
   400, 4800, 400, 800, 15200, 14400, 400, 800, 400, 1200, 400, 800, 400, 400, 2000, 400, 103600, 44000, 400, 1600,
   400, 400, 15200, 400, 400, 800, 5200, 400, 400, 800, 4800, 400, 400, 400, 400, 800, 400, 800, 400, 400, 2400, 400,
   400, 400, 400, 400, 400, 400, 16800, 400, 2000, 400, 400, 2000, 1200, 1600, 1200, 14800, 1600, 800, 400, 14800,
   400, 400, 16000, 400, 14800, 1600, 2000, 1200, 400, 800, 400, 400, 400, 400, 400, 17600, 8000, 400, 101200, 86800,
   14400, 14400, 14400, 3600, 2800, 400, 400, 400, 2400, 800, 400, 1200, 400, 100000, 14800, 27200, 26800, 42400,
   100000, 14800, 42400, 400, 800, 400, 3200, 2000, 800, 800, 400, 400, 3600, 1600, 800, 400, 800, 27200, 400, 400,
   400, 400, 400, 4400, 800, 1200, 400, 800, 1200, 1600, 2000, 2800, 3200, 3600, 4400, 4800, 5200, 5600, 6000, 6400,
   6800, 7600, 8000, 8400, 9200, 9600, 10000, 10400, 10800, 11200, 11600, 12000, 12400, 12800, 13200, 400, 400, 400,
   14800, 800, 400, 400, 400, 400, 1600, 400, 400, 400, 400, 400, 400, 400, 400, 9600, 6800, 400, 2000, 800, 400,
   4400, 2400, 1200, 800, 400, 9600, 7600, 400, 12000, 10000, 400, 14400, 12400, 400, 16800, 14800, 400, 19200,
   17200, 400, 21600, 19600, 400, 24000, 22000, 400, 26400, 24400, 400, 28800, 26800, 400, 31200, 29200, 400, 33600,
   31600, 400, 36000, 34000, 400, 38400, 36400, 400, 40800, 38800, 2000, 2000, 400, 400, 15600, 1200, 400, 400, 400,
   400, 400, 45600, 400, 29200, 800, 400, 400, 800, 27200, 400, 132000, 130800, 3200, 400, 1600, 400, 800, 400, 400,
   400, 15600, 14400, 400, 28800, 400, 400, 400, 400, 400, 400, 400, 400, 400, 400, 400, 2400, 400, 400, 400, 400,
   400, 400, 400, 400, 400, 400, 400, 400, 1200, 400, 400, 400, 14400, 14000, 400, 400, 27200, 26800, 400, 400, 400,
   400, 400, 400, 800, 400, 400, 400, 400, 800, 400, 400, 400, 6000, 800, 1200, 400, 1600, 800, 800, 400, 15600, 400,
   400, 2000, 28400, 1600, 400, 800, 400, 400, 400, 400, 400, 2400, 400, 400, 400, 400, 400, 400, 400, 400, 1600,
   800, 15200, 400, 1600, 800, 28800, 400, 400, 28000, 16400, 15200, 400, 400, 1200, 3200, 1200, 400, 15200, 1200,
   800, 400, 2800, 24800, 400, 15600, 1200, 400, 16400, 400, 400, 400, 1600, 145200, 400, 400, 400, 1200, 400, 17200,
   16400, 15600, 400, 400, 400, 400, 400, 3200, 400, 400, 1600, 1200, 400, 1200, 400, 400, 400, 400, 400, 1600, 400,
   1200, 1600, 400, 2800, 400, 3600, 400, 400, 1200, 400, 1200, 400, 400, 4400, 400, 15200, 400, 400, 400, 400, 400,
   15200, 15200, 400, 15600, 400, 18000, 400, 4400, 400, 400, 400, 1200, 400, 1200, 1600, 800, 1200, 400, 400, 400,
   800, 5200, 400, 400, 400, 800, 400, 1200, 400, 1200, 400]

/-- Size of what is shown for each type of `for_tests/westend9111`, up to the first enum or vector. -/
def sizes : List Nat :=
  [105, 68, 2, 212, 2, 99, 2, 76, 2, 99, 2, 62, 2, 39, 12, 46, 9, 86, 2, 102, 24, 28, 148, 38, 29, 27, 24, 29, 30,
   31, 49, 37, 31, 36, 30, 30, 2, 153, 149, 101, 32, 162, 101, 2, 214, 107, 4, 2, 169, 30, 31, 31, 30, 32, 6, 9, 9,
   2, 27, 28, 28, 2, 31, 57, 52, 55, 2, 9, 32, 53, 1501, 1308, 40, 161, 234, 168, 132, 154, 50, 40, 41, 49, 47, 24,
   22, 48, 145, 55, 45, 48, 49, 26, 98, 33, 27, 4, 28, 4, 44, 25, 27, 37, 2, 21, 49, 2, 114, 28, 32, 34, 20, 18, 9,
   26, 20, 51, 37, 35, 36, 21, 9, 27, 2, 32, 38, 27, 29, 21, 2, 2, 109, 2, 27, 40, 2, 6, 2, 659, 547, 159, 9, 134,
   76, 65, 175, 8, 2, 24, 28, 64, 151, 147, 2, 31, 49, 6, 33, 55, 2, 9, 118, 26, 1288, 508, 32, 105, 27, 31, 111, 29,
   30, 64, 121, 26, 2, 55, 84, 2, 27, 30, 39, 4, 31, 44, 38, 2, 150, 2, 35, 9, 32, 2, 33, 2, 249, 2, 60, 2, 35, 104,
   42, 90, 71, 109, 106, 13, 2, 109, 25, 2, 240, 2, 109, 44, 129, 70, 26, 39, 36, 2, 9, 9, 37, 290, 40, 2, 1473,
   1366, 162, 163, 152, 50, 46, 29, 30, 29, 191, 64, 29, 118, 35, 987, 154, 222, 168, 378, 991, 156, 380, 30, 64, 2,
   359, 312, 64, 64, 2, 31, 286, 129, 32, 2, 44, 235, 32, 29, 2, 23, 30, 445, 55, 60, 29, 4, 6, 8, 10, 14, 16, 18,
   22, 24, 26, 28, 30, 32, 34, 38, 40, 42, 46, 48, 50, 52, 54, 56, 58, 60, 62, 64, 66, 2, 9, 2, 136, 48, 38, 34, 30,
   29, 102, 31, 9, 26, 27, 9, 30, 9, 51, 273, 175, 2, 10, 4, 2, 57, 47, 41, 39, 2, 153, 143, 2, 200, 190, 2, 247,
   237, 2, 294, 284, 2, 341, 331, 2, 388, 378, 2, 435, 425, 2, 482, 472, 2, 529, 519, 2, 576, 566, 2, 623, 613, 2,
   670, 660, 2, 717, 707, 2, 764, 754, 10, 89, 9, 2, 198, 91, 31, 56, 49, 52, 57, 693, 2, 477, 79, 2, 20, 45, 235, 2,
   1886, 1718, 296, 2, 124, 9, 56, 2, 45, 2, 308, 144, 2, 324, 42, 51, 53, 48, 54, 46, 46, 47, 54, 44, 57, 222, 19,
   13, 2, 21, 2, 18, 13, 2, 21, 2, 18, 47, 42, 48, 9, 25, 101, 70, 9, 28, 168, 134, 25, 19, 13, 2, 21, 2, 51, 13, 2,
   21, 2, 37, 2, 21, 30, 663, 55, 38, 2, 59, 55, 55, 9, 239, 2, 31, 111, 212, 92, 31, 55, 2, 26, 30, 2, 9, 232, 31,
   25, 51, 27, 15, 28, 32, 27, 59, 55, 218, 2, 59, 55, 277, 2, 28, 175, 274, 111, 31, 45, 6, 179, 104, 2, 111, 85,
   13, 2, 14, 517, 52, 235, 94, 2, 1346, 57, 2, 2, 189, 1805, 53, 58, 2, 110, 2, 420, 327, 254, 2, 9, 38, 2, 2, 294,
   55, 50, 44, 121, 2, 82, 2, 40, 44, 49, 2, 143, 2, 90, 44, 47, 171, 2, 211, 9, 2, 92, 2, 6, 48, 2, 314, 2, 198, 55,
   2, 9, 45, 58, 147, 335, 9, 149, 48, 432, 53, 52, 49, 32, 9, 6, 24, 33, 8, 55, 33, 2, 42, 26, 62, 446, 62, 58, 53,
   89, 29, 61, 51, 70, 26]

/-- Cost of a type. -/
def cost (id : Nat) : Nat := costs.getD id 1
/-- Size of a type. -/
def size (id : Nat) : Nat := sizes.getD id 0

/-- `sz` and `K` are enough for the accesses of one type. -/
def tollOk (sz : Nat → Nat) (K : Nat) (x : Typ × Nat) : Bool :=
  ownCost ≤ sz x.2 && match x.1.typeDef with
  | .composite fs => ownCost + fieldsCost sz fs ≤ sz x.2
  | .tuple ids => ownCost + (ids.map sz).sum ≤ sz x.2
  | .array n e => ownCost + (n + 1) * sz e ≤ sz x.2
  | .compact i => ownCost + sz i ≤ sz x.2
  | .variant vs => vs.all fun v => decide (ownCost + 2 * fieldsCost sz v.fields ≤ K)
  | _ => true

/-- `sz` and `K` are enough for what is shown of one type, where `tx` is the size of a text. -/
def budgetOk (tx : String → Nat) (sz : Nat → Nat) (K : Nat) (x : Typ × Nat) : Bool :=
  let opt := fun o : Option String => match o with | none => 0 | some s => tx s
  let own := 1 + tx (lines x.1.docs) + (x.1.path.map fun s => 1 + tx s).sum
  let fields := fun fs : List Field => (fs.map fun f => opt f.name + opt f.typeName + tx (lines f.docs) + sz f.ty).sum
  sz x.2 ≤ K && 1 + own ≤ sz x.2 && match x.1.typeDef with
  | .composite fs => 1 + own + fields fs ≤ sz x.2
  | .tuple ids => 1 + own + (ids.map sz).sum ≤ sz x.2
  | .array n e => 1 + own + (n + 1) * sz e ≤ sz x.2
  | .compact i => own + sz i ≤ sz x.2
  | .variant vs => vs.all fun v => decide (1 + tx v.name + tx (lines v.docs) + fields v.fields ≤ K)
  | _ => true

theorem textSize_eq : textSize = String.utf8ByteSize := by
  funext s
  unfold textSize utf8
  rw [String.utf8ByteSize, ← String.utf8Encode_toList, List.utf8Encode, List.size_toByteArray]

theorem costs_ok : types.zipIdx.all (tollOk cost 288400) = true := by decide +kernel
theorem costs_range : costs.all (fun n => 1 ≤ n && n ≤ 288400) = true := by decide +kernel
theorem sizes_ok0 : (types0.zipIdx 0).all (budgetOk String.utf8ByteSize size 1886) = true := by decide +kernel
theorem sizes_ok1 : (types1.zipIdx 32).all (budgetOk String.utf8ByteSize size 1886) = true := by decide +kernel
theorem sizes_ok2 : (types2.zipIdx 64).all (budgetOk String.utf8ByteSize size 1886) = true := by decide +kernel
theorem sizes_ok3 : (types3.zipIdx 96).all (budgetOk String.utf8ByteSize size 1886) = true := by decide +kernel
theorem sizes_ok4 : (types4.zipIdx 128).all (budgetOk String.utf8ByteSize size 1886) = true := by decide +kernel
theorem sizes_ok5 : (types5.zipIdx 160).all (budgetOk String.utf8ByteSize size 1886) = true := by decide +kernel
theorem sizes_ok6 : (types6.zipIdx 192).all (budgetOk String.utf8ByteSize size 1886) = true := by decide +kernel
theorem sizes_ok7 : (types7.zipIdx 224).all (budgetOk String.utf8ByteSize size 1886) = true := by decide +kernel
theorem sizes_ok8 : (types8.zipIdx 256).all (budgetOk String.utf8ByteSize size 1886) = true := by decide +kernel
theorem sizes_ok9 : (types9.zipIdx 288).all (budgetOk String.utf8ByteSize size 1886) = true := by decide +kernel
theorem sizes_ok10 : (types10.zipIdx 320).all (budgetOk String.utf8ByteSize size 1886) = true := by decide +kernel
theorem sizes_ok11 : (types11.zipIdx 352).all (budgetOk String.utf8ByteSize size 1886) = true := by decide +kernel
theorem sizes_ok12 : (types12.zipIdx 384).all (budgetOk String.utf8ByteSize size 1886) = true := by decide +kernel
theorem sizes_ok13 : (types13.zipIdx 416).all (budgetOk String.utf8ByteSize size 1886) = true := by decide +kernel
theorem sizes_ok14 : (types14.zipIdx 448).all (budgetOk String.utf8ByteSize size 1886) = true := by decide +kernel
theorem sizes_ok15 : (types15.zipIdx 480).all (budgetOk String.utf8ByteSize size 1886) = true := by decide +kernel
theorem sizes_ok16 : (types16.zipIdx 512).all (budgetOk String.utf8ByteSize size 1886) = true := by decide +kernel
theorem sizes_ok17 : (types17.zipIdx 544).all (budgetOk String.utf8ByteSize size 1886) = true := by decide +kernel
theorem sizes_ok18 : (types18.zipIdx 576).all (budgetOk String.utf8ByteSize size 1886) = true := by decide +kernel
theorem length0 : types0.length = 32 := by decide +kernel
theorem length1 : types1.length = 32 := by decide +kernel
theorem length2 : types2.length = 32 := by decide +kernel
theorem length3 : types3.length = 32 := by decide +kernel
theorem length4 : types4.length = 32 := by decide +kernel
theorem length5 : types5.length = 32 := by decide +kernel
theorem length6 : types6.length = 32 := by decide +kernel
theorem length7 : types7.length = 32 := by decide +kernel
theorem length8 : types8.length = 32 := by decide +kernel
theorem length9 : types9.length = 32 := by decide +kernel
theorem length10 : types10.length = 32 := by decide +kernel
theorem length11 : types11.length = 32 := by decide +kernel
theorem length12 : types12.length = 32 := by decide +kernel
theorem length13 : types13.length = 32 := by decide +kernel
theorem length14 : types14.length = 32 := by decide +kernel
theorem length15 : types15.length = 32 := by decide +kernel
theorem length16 : types16.length = 32 := by decide +kernel
theorem length17 : types17.length = 32 := by decide +kernel
theorem length18 : types18.length = 21 := by decide +kernel
theorem sizes_ok : types.zipIdx.all (budgetOk String.utf8ByteSize size 1886) = true := by
  unfold types
  simp only [List.zipIdx_append, List.all_append, Bool.and_eq_true, length0, length1, length2, length3, length4, length5, length6, length7, length8, length9, length10, length11, length12, length13, length14, length15, length16, length17, length18]
  exact ⟨sizes_ok0, sizes_ok1, sizes_ok2, sizes_ok3, sizes_ok4, sizes_ok5, sizes_ok6, sizes_ok7, sizes_ok8, sizes_ok9, sizes_ok10, sizes_ok11, sizes_ok12, sizes_ok13, sizes_ok14, sizes_ok15, sizes_ok16, sizes_ok17, sizes_ok18⟩

theorem toll_ok {id : Nat} {t : Typ} (h : registry.resolve id = .ok t) : tollOk cost 288400 (t, id) = true :=
  List.all_eq_true.1 costs_ok _ (List.mem_zipIdx_iff_getElem?.2 (portable_get h))

theorem budget_ok {id : Nat} {t : Typ} (h : registry.resolve id = .ok t) : budgetOk textSize size 1886 (t, id) = true :=
  textSize_eq ▸ List.all_eq_true.1 sizes_ok _ (List.mem_zipIdx_iff_getElem?.2 (portable_get h))

theorem cost_range (id : Nat) : 1 ≤ cost id ∧ cost id ≤ 288400 := by
  unfold cost
  rw [List.getD_eq_getElem?_getD]
  cases h : costs[id]? with
  | none => simp
  | some n => simpa using List.all_eq_true.1 costs_range n (List.mem_of_getElem? h)

/-- No type of Westend costs more than 288400. -/
theorem toll : Toll registry cost 288400 where
  within id := (cost_range id).2
  lookup id := (cost_range id).1
  own h := by
    have := toll_ok h
    simp only [tollOk, Bool.and_eq_true, decide_eq_true_eq] at this
    exact this.1
  struct h hd := by
    have := toll_ok h
    simp only [tollOk, Bool.and_eq_true, decide_eq_true_eq, hd] at this
    exact this.2
  tuple h hd := by
    have := toll_ok h
    simp only [tollOk, Bool.and_eq_true, decide_eq_true_eq, hd] at this
    exact this.2
  array h hd := by
    have := toll_ok h
    simp only [tollOk, Bool.and_eq_true, decide_eq_true_eq, hd] at this
    exact this.2
  compact h hd := by
    have := toll_ok h
    simp only [tollOk, Bool.and_eq_true, decide_eq_true_eq, hd] at this
    exact this.2
  enum {_ _ _ v} h hd hv := by
    have := toll_ok h
    simp only [tollOk, Bool.and_eq_true, decide_eq_true_eq, hd, List.all_eq_true] at this
    exact this.2 v hv

/-- No type of Westend shows more than 1886. -/
theorem budget : Budget registry size 1886 where
  within h := by
    have := budget_ok h
    simp only [budgetOk, Bool.and_eq_true, decide_eq_true_eq] at this
    exact this.1.1
  own h := by
    have := budget_ok h
    simp only [budgetOk, Bool.and_eq_true, decide_eq_true_eq] at this
    exact this.1.2
  struct h hd := by
    have := budget_ok h
    simp only [budgetOk, Bool.and_eq_true, decide_eq_true_eq, hd] at this
    exact this.2
  tuple h hd := by
    have := budget_ok h
    simp only [budgetOk, Bool.and_eq_true, decide_eq_true_eq, hd] at this
    exact this.2
  array h hd := by
    have := budget_ok h
    simp only [budgetOk, Bool.and_eq_true, decide_eq_true_eq, hd] at this
    exact this.2
  compact h hd := by
    have := budget_ok h
    simp only [budgetOk, Bool.and_eq_true, decide_eq_true_eq, hd] at this
    exact this.2
  enum {_ _ _ v} h hd hv := by
    have := budget_ok h
    simp only [budgetOk, Bool.and_eq_true, decide_eq_true_eq, hd, List.all_eq_true] at this
    exact this.2 v hv

end Verif.Westend
