import Verif.Reduce
/-
`norm2`, `innerProduct` and `innerProductReal` of fermion fields in the library built for SSE: include/scalarsite_sse/qdp_scalarsite_sse_blas.h:2200-2782
(single precision), include/scalarsite_sse/qdp_scalarsite_sse_blas_double.h:2554-3026 (double precision) and the kernels they call.

Fields and pointers are those of `Reduce`.  Arithmetic is exact; the conversions between REAL32 and REAL64 are left out, and so is the sum over the
nodes.  The sums of the threads go through an array that lives as long as the program; a cell of it that was never written holds `none`.
-/
namespace Verif.SseReduce
open Verif Outcome Verif.Subset Verif.Dispatch Verif.Site Verif.Su3 Verif.Reduce

/-! ## model: the kernels -/

section
variable {K : Type} [CommRing K]

/-- `_mm_load_ps` -/
def ld4 (p : Nat → Outcome K) (k : Nat) : Outcome (K × K × K × K) := do
  let a ← p k
  let b ← p (k + 1)
  let c ← p (k + 2)
  let d ← p (k + 3)
  ok (a, b, c, d)

/-- `_mm_load_pd` -/
def ld2 (p : Nat → Outcome K) (k : Nat) : Outcome (K × K) := do
  let a ← p k
  let b ← p (k + 1)
  ok (a, b)

/-- the statements repeated for each four numbers, lib/scalarsite_sse/qdp_scalarsite_sse.cc:1378-1386: the numbers 2, 3, 0, 0 of the register go to
`tmp2` (`_mm_shuffle_ps(tmp1, tmp1, 0x0e)`); `lower_2` is the lower half of `tmp1`, `upper_2` that of `tmp2`; the squares go to `vsum`, `vsum2` -/
def sqAcc (v : (K × K) × (K × K)) (t : K × K × K × K) : (K × K) × (K × K) :=
  let tmp2 := (t.2.2.1, t.2.2.2, t.1, t.1)
  let lower_2 := (t.1, t.2.1)
  let upper_2 := (tmp2.1, tmp2.2.1)
  (v.1 + lower_2 * lower_2, v.2 + upper_2 * upper_2)

/-- variables of `local_sumsq_24_48` that a round hands to the next: `num`, `tmp1` and the two sums -/
structure Sq (K : Type) where
  num : Nat
  tmp1 : K × K × K × K
  v : (K × K) × (K × K)

/-- a round of the loop, lib/scalarsite_sse/qdp_scalarsite_sse.cc:1373-1450 -/
def sqRound (p : Nat → Outcome K) (s : Sq K) : Outcome (Sq K) := do
  let tmp3 ← ld4 p s.num
  let v := sqAcc s.v s.tmp1
  let tmp4 ← ld4 p (s.num + 4)
  let v := sqAcc v tmp3
  let tmp5 ← ld4 p (s.num + 8)
  let v := sqAcc v tmp4
  let tmp6 ← ld4 p (s.num + 12)
  let v := sqAcc v tmp5
  let tmp7 ← ld4 p (s.num + 16)
  let v := sqAcc v tmp6
  let tmp1 ← ld4 p (s.num + 20)
  let v := sqAcc v tmp7
  ok ⟨s.num + 24, tmp1, v⟩

/-- the part after the loop, lib/scalarsite_sse/qdp_scalarsite_sse.cc:1451-1528 -/
def sqLast (p : Nat → Outcome K) (s : Sq K) : Outcome ((K × K) × (K × K)) := do
  let tmp3 ← ld4 p s.num
  let v := sqAcc s.v s.tmp1
  let tmp4 ← ld4 p (s.num + 4)
  let v := sqAcc v tmp3
  let tmp5 ← ld4 p (s.num + 8)
  let v := sqAcc v tmp4
  let tmp6 ← ld4 p (s.num + 12)
  let v := sqAcc v tmp5
  let tmp7 ← ld4 p (s.num + 16)
  let v := sqAcc v tmp6
  ok (sqAcc v tmp7)

/-- a loop of `n` rounds -/
def rounds {σ : Type} (f : σ → Outcome σ) : Nat → σ → Outcome σ
  | 0, s => ok s
  | n + 1, s => do
    let s ← f s
    rounds f n s

/-- `local_sumsq_24_48`, lib/scalarsite_sse/qdp_scalarsite_sse.cc:1356-1556 -/
def sumsqS (p : Nat → Outcome K) (n : Int) : Outcome K := do
  let tmp1 ← ld4 p 0
  let s ← rounds (sqRound p) (n - 1).toNat ⟨4, tmp1, (0, 0)⟩
  let v ← sqLast p s
  let vsum := v.1 + v.2
  let lower_2 := (vsum.2, vsum.1)
  let upper_2 := lower_2 + vsum
  ok upper_2.2

/-- a round of `local_sumsq4`, lib/scalarsite_sse/sse_blas_local_sumsq_double.cc:35-87: the four sums, and the offset of `in` -/
def sq4Round (p : Nat → Outcome K) (s : Nat × (K × K) × (K × K) × (K × K) × (K × K)) : Outcome (Nat × (K × K) × (K × K) × (K × K) × (K × K)) := do
  let (i, sum1, sum2, sum3, sum4) := s
  let tmp1 ← ld2 p i
  let sum1 := sum1 + tmp1 * tmp1
  let tmp2 ← ld2 p (i + 2)
  let sum2 := sum2 + tmp2 * tmp2
  let tmp3 ← ld2 p (i + 4)
  let sum3 := sum3 + tmp3 * tmp3
  let tmp4 ← ld2 p (i + 6)
  let sum4 := sum4 + tmp4 * tmp4
  let tmp1 ← ld2 p (i + 8)
  let sum1 := sum1 + tmp1 * tmp1
  let tmp2 ← ld2 p (i + 10)
  let sum2 := sum2 + tmp2 * tmp2
  let tmp3 ← ld2 p (i + 12)
  let sum3 := sum3 + tmp3 * tmp3
  let tmp4 ← ld2 p (i + 14)
  let sum4 := sum4 + tmp4 * tmp4
  let tmp1 ← ld2 p (i + 16)
  let sum1 := sum1 + tmp1 * tmp1
  let tmp2 ← ld2 p (i + 18)
  let sum2 := sum2 + tmp2 * tmp2
  let tmp3 ← ld2 p (i + 20)
  let sum3 := sum3 + tmp3 * tmp3
  let tmp4 ← ld2 p (i + 22)
  let sum4 := sum4 + tmp4 * tmp4
  ok (i + 24, sum1, sum2, sum3, sum4)

/-- `local_sumsq4`, lib/scalarsite_sse/sse_blas_local_sumsq_double.cc:14-97 -/
def sumsqD (p : Nat → Outcome K) (n : Int) : Outcome K := do
  let (_, sum1, sum2, sum3, sum4) ← rounds (sq4Round p) n.toNat (0, 0, 0, 0, 0)
  let sum1 := sum1 + sum2
  let sum3 := sum3 + sum4
  let sum1 := sum1 + sum3
  let tmp1 := (sum1.2, sum1.1)
  let sum1 := tmp1 + sum1
  ok sum1.1

/-- `CONJMADD`, lib/scalarsite_sse/sse_blas_local_vcdot_double.cc:32-44 and, with SSE3, 62-72 -/
def conjmadd (sse3 : Bool) (z x y : K × K) : K × K :=
  if sse3 then
    let t1 := x * y
    let t1 := (t1.1 + t1.2, t1.1 + t1.2)
    let t2 := (x.2, x.1)
    let t2 := y * t2
    let t2 := (t2.1 - t2.2, t2.1 - t2.2)
    let t1 := (t1.1, t2.2)
    z + t1
  else
    let t1 := x * y
    let t2 := (t1.2, t1.1)
    let t3 := (y.2, y.1)
    let t4 := t1 + t2
    let t2 := x * t3
    let t3 := (t2.2, t2.1)
    let t3 := t2 - t3
    let t4 := (t4.1, t3.2)
    z + t4

/-- two loads and `CONJMADD` -/
def dotStep (sse3 : Bool) (x y : Nat → Outcome K) (k : Nat) (z : K × K) : Outcome (K × K) := do
  let a ← ld2 x k
  let b ← ld2 y k
  ok (conjmadd sse3 z a b)

/-- a round of `local_vcdot4`, lib/scalarsite_sse/sse_blas_local_vcdot_double.cc:117-180 -/
def dot4Round (sse3 : Bool) (x y : Nat → Outcome K) (s : Nat × (K × K) × (K × K) × (K × K) × (K × K)) :
    Outcome (Nat × (K × K) × (K × K) × (K × K) × (K × K)) := do
  let (i, sum1, sum2, sum3, sum4) := s
  let sum1 ← dotStep sse3 x y i sum1
  let sum2 ← dotStep sse3 x y (i + 2) sum2
  let sum3 ← dotStep sse3 x y (i + 4) sum3
  let sum4 ← dotStep sse3 x y (i + 6) sum4
  let sum1 ← dotStep sse3 x y (i + 8) sum1
  let sum2 ← dotStep sse3 x y (i + 10) sum2
  let sum3 ← dotStep sse3 x y (i + 12) sum3
  let sum4 ← dotStep sse3 x y (i + 14) sum4
  let sum1 ← dotStep sse3 x y (i + 16) sum1
  let sum2 ← dotStep sse3 x y (i + 18) sum2
  let sum3 ← dotStep sse3 x y (i + 20) sum3
  let sum4 ← dotStep sse3 x y (i + 22) sum4
  ok (i + 24, sum1, sum2, sum3, sum4)

/-- `local_vcdot4(sum, y, x, n)`, lib/scalarsite_sse/sse_blas_local_vcdot_double.cc:95-192 -/
def vcdotD (sse3 : Bool) (y x : Nat → Outcome K) (n : Int) : Outcome (K × K) := do
  let (_, sum1, sum2, sum3, sum4) ← rounds (dot4Round sse3 x y) n.toNat (0, 0, 0, 0, 0)
  let sum1 := sum1 + sum2
  let sum3 := sum3 + sum4
  ok (sum1 + sum3)

/-- two loads, the product and its addition -/
def realStep (x y : Nat → Outcome K) (k : Nat) (z : K × K) : Outcome (K × K) := do
  let a ← ld2 x k
  let b ← ld2 y k
  ok (z + a * b)

/-- a round of `local_vcdot_real4`, lib/scalarsite_sse/sse_blas_local_vcdot_real_double.cc:57-126 -/
def real4Round (x y : Nat → Outcome K) (s : Nat × (K × K) × (K × K) × (K × K) × (K × K)) :
    Outcome (Nat × (K × K) × (K × K) × (K × K) × (K × K)) := do
  let (i, sum1, sum2, sum3, sum4) := s
  let sum1 ← realStep x y i sum1
  let sum2 ← realStep x y (i + 2) sum2
  let sum3 ← realStep x y (i + 4) sum3
  let sum4 ← realStep x y (i + 6) sum4
  let sum1 ← realStep x y (i + 8) sum1
  let sum2 ← realStep x y (i + 10) sum2
  let sum3 ← realStep x y (i + 12) sum3
  let sum4 ← realStep x y (i + 14) sum4
  let sum1 ← realStep x y (i + 16) sum1
  let sum2 ← realStep x y (i + 18) sum2
  let sum3 ← realStep x y (i + 20) sum3
  let sum4 ← realStep x y (i + 22) sum4
  ok (i + 24, sum1, sum2, sum3, sum4)

/-- `local_vcdot_real4(sum, y, x, n)`, lib/scalarsite_sse/sse_blas_local_vcdot_real_double.cc:34-142 -/
def vcdotRealD (y x : Nat → Outcome K) (n : Int) : Outcome K := do
  let (_, sum1, sum2, sum3, sum4) ← rounds (real4Round x y) n.toNat (0, 0, 0, 0, 0)
  let sum1 := sum1 + sum2
  let sum3 := sum3 + sum4
  let sum1 := sum1 + sum3
  let tmp1 := (sum1.2, sum1.1)
  let sum1 := tmp1 + sum1
  ok sum1.2

/-- variables of `local_vcdot` that a round hands to the next: `vecptr1` (`vecptr2` is equal to it), the results, and the numbers loaded ahead -/
structure Dot (K : Type) where
  ptr : Nat
  re : K
  im : K
  v1_0r : K
  v2_0r : K
  v1_0i : K
  v2_0i : K
  v1_1r : K
  v2_1r : K

/-- a round of `local_vcdot`, lib/scalarsite_sse/qdp_scalarsite_sse.cc:1597-1628 -/
def dotRound (V1 V2 : Nat → Outcome K) (s : Dot K) : Outcome (Dot K) := do
  let k := s.ptr
  let re := s.re + s.v1_0r * s.v2_0r
  let v1_1i ← V1 k
  let im := s.im - s.v1_0i * s.v2_0r
  let v2_1i ← V2 k
  let im := im + s.v1_0r * s.v2_0i
  let v1_2r ← V1 (k + 1)
  let re := re + s.v1_0i * s.v2_0i
  let v2_2r ← V2 (k + 1)
  let re := re + s.v1_1r * s.v2_1r
  let v1_2i ← V1 (k + 2)
  let im := im - v1_1i * s.v2_1r
  let v2_2i ← V2 (k + 2)
  let im := im + s.v1_1r * v2_1i
  let v1_0r ← V1 (k + 3)
  let re := re + v1_1i * v2_1i
  let v2_0r ← V2 (k + 3)
  let re := re + v1_2r * v2_2r
  let v1_0i ← V1 (k + 4)
  let im := im - v1_2i * v2_2r
  let v2_0i ← V2 (k + 4)
  let im := im + v1_2r * v2_2i
  let v1_1r ← V1 (k + 5)
  let re := re + v1_2i * v2_2i
  let v2_1r ← V2 (k + 5)
  ok ⟨k + 6, re, im, v1_0r, v2_0r, v1_0i, v2_0i, v1_1r, v2_1r⟩

/-- the part after the loop, lib/scalarsite_sse/qdp_scalarsite_sse.cc:1630-1652 -/
def dotLast (V1 V2 : Nat → Outcome K) (s : Dot K) : Outcome (K × K) := do
  let k := s.ptr
  let re := s.re + s.v1_0r * s.v2_0r
  let v1_1i ← V1 k
  let im := s.im - s.v1_0i * s.v2_0r
  let v2_1i ← V2 k
  let im := im + s.v1_0r * s.v2_0i
  let v1_2r ← V1 (k + 1)
  let re := re + s.v1_0i * s.v2_0i
  let v2_2r ← V2 (k + 1)
  let re := re + s.v1_1r * s.v2_1r
  let v1_2i ← V1 (k + 2)
  let im := im - v1_1i * s.v2_1r
  let v2_2i ← V2 (k + 2)
  let im := im + s.v1_1r * v2_1i
  let re := re + v1_1i * v2_1i
  let re := re + v1_2r * v2_2r
  let im := im - v1_2i * v2_2r
  let im := im + v1_2r * v2_2i
  let re := re + v1_2i * v2_2i
  ok (re, im)

/-- `local_vcdot`, lib/scalarsite_sse/qdp_scalarsite_sse.cc:1559-1658; `n` counts colour vectors -/
def vcdotS (V1 V2 : Nat → Outcome K) (n : Int) : Outcome (K × K) :=
  if n > 0 then do
    let v1_0r ← V1 0
    let v2_0r ← V2 0
    let v1_0i ← V1 1
    let v2_0i ← V2 1
    let v1_1r ← V1 2
    let v2_1r ← V2 2
    let s ← rounds (dotRound V1 V2) (n - 1).toNat ⟨3, 0, 0, v1_0r, v2_0r, v1_0i, v2_0i, v1_1r, v2_1r⟩
    dotLast V1 V2 s
  else ok (0, 0)

/-- the same for `local_vcdot_real`: the six pairs of numbers loaded ahead are those at `ptr`-6, …, `ptr`-1 -/
structure DotR (K : Type) where
  ptr : Nat
  res : K
  v1 : K × K × K × K × K × K
  v2 : K × K × K × K × K × K

/-- six loads from each array, lib/scalarsite_sse/qdp_scalarsite_sse.cc:1688-1704 and, mixed with the sums, 1708-1729 -/
def ld6 (p : Nat → Outcome K) (k : Nat) : Outcome (K × K × K × K × K × K) := do
  let a ← p k
  let b ← p (k + 1)
  let c ← p (k + 2)
  let d ← p (k + 3)
  let e ← p (k + 4)
  let f ← p (k + 5)
  ok (a, b, c, d, e, f)

/-- six products added to the result, lib/scalarsite_sse/qdp_scalarsite_sse.cc:1707-1727, 1735-1740 -/
def dot6 (r : K) (a b : K × K × K × K × K × K) : K :=
  r + a.1 * b.1 + a.2.1 * b.2.1 + a.2.2.1 * b.2.2.1 + a.2.2.2.1 * b.2.2.2.1 + a.2.2.2.2.1 * b.2.2.2.2.1 + a.2.2.2.2.2 * b.2.2.2.2.2

/-- a round of `local_vcdot_real`, lib/scalarsite_sse/qdp_scalarsite_sse.cc:1706-1732; each number is loaded after the product that uses the old one -/
def realRound (V1 V2 : Nat → Outcome K) (s : DotR K) : Outcome (DotR K) := do
  let v1 ← ld6 V1 s.ptr
  let v2 ← ld6 V2 s.ptr
  ok ⟨s.ptr + 6, dot6 s.res s.v1 s.v2, v1, v2⟩

/-- `local_vcdot_real`, lib/scalarsite_sse/qdp_scalarsite_sse.cc:1661-1745 -/
def vcdotRealS (V1 V2 : Nat → Outcome K) (n : Int) : Outcome K :=
  if n > 0 then do
    let v1 ← ld6 V1 0
    let v2 ← ld6 V2 0
    let s ← rounds (realRound V1 V2) (n - 1).toNat ⟨6, 0, v1, v2⟩
    ok (dot6 s.res s.v1 s.v2)
  else ok 0

end

/-! ## model: the threads -/

section
variable {M : Type} [AddCommGroup M]

/-- `results[i]`, read; the value of a cell that was never written is indeterminate -/
def cell (res : List (Option M)) (i : Nat) : Outcome M :=
  match res[i]? with
  | some (some v) => ok v
  | _ => ub

/-- `results[i] = v` -/
def setCell (res : List (Option M)) (i : Nat) (v : M) : Outcome (List (Option M)) :=
  if i < res.length then ok (res.set i (some v)) else ub

/-- `ordered_norm_single_func`, include/scalarsite_sse/qdp_scalarsite_sse_blas_wrapper.h:391-399, `ordered_norm_double_func` and
`ordered_inner_product_double_func`, include/scalarsite_sse/qdp_scalarsite_sse_blas_double_wrapper.h:361-370, 381-391: `kern o n` is the kernel on `n`
sites from the word `o` on.  An inner product has two neighbouring cells, here one cell with a pair.  A thread without work does nothing. -/
def threadFunc (kern : Nat → Int → Outcome M) (id : Nat) (r : Option (Nat × Nat)) (res : List (Option M)) : Outcome (List (Option M)) :=
  match r with
  | none => ok res
  | some (lo, hi) => do
    let nvec := (hi : Int) - lo
    let index ← ckInt (24 * lo)
    let v ← kern index nvec
    setCell res id v

/-- the threads, in the order in which they store their sums; they only read the fields, and each writes a cell of its own -/
def threadsRun (kern : Nat → Int → Outcome M) (ranges : List (Option (Nat × Nat))) : List Nat → List (Option M) → Outcome (List (Option M))
  | [], res => ok res
  | id :: order, res => do
    let res ← threadFunc kern id (ranges.getD id none) res
    threadsRun kern ranges order res

/-- `for(int i=1; i < qdpNumThreads(); i++) ltmp += arg.results[i];` -/
def addCells (res : List (Option M)) : List Nat → M → Outcome M
  | [], ltmp => ok ltmp
  | i :: is, ltmp => do
    let v ← cell res i
    addCells res is (ltmp + v)

/-- the part for ordered subsets of `norm2`, include/scalarsite_sse/qdp_scalarsite_sse_blas.h:2209-2230, 2261-2277,
include/scalarsite_sse/qdp_scalarsite_sse_blas_double.h:2563-2582, 2625-2642, and of `innerProduct`, there 2668-2681, 2737-2750: `T` is
`qdpNumThreads()`, `n` the number of sites, `res` the array `norm2_results` or `innerProd_results` -/
def ordered (kern : Nat → Int → Outcome M) (T : Nat) (res : List (Option M)) (n : Int) : Poss (M × List (Option M)) := fun o =>
  ∃ order : List Nat, order.Perm (List.range T) ∧ o = (do
    let ranges ← dispatch n.toNat T
    let res ← threadsRun kern ranges order res
    let ltmp ← cell res 0
    let ltmp ← addCells res (List.range' 1 (T - 1)) ltmp
    ok (ltmp, res))

/-- the loop over the table of a subset, include/scalarsite_sse/qdp_scalarsite_sse_blas.h:2235-2242, 2358-2369, 2452-2463,
include/scalarsite_sse/qdp_scalarsite_sse_blas_double.h:2603-2609, 2786-2798, 2887-2898 -/
def table (call : Int → Outcome M) : List Int → M → Outcome M
  | [], lsum => ok lsum
  | i :: tab, lsum => do
    let ltmp ← call i
    table call tab (lsum + ltmp)

/-- `new REAL64 [ qdpNumThreads() ]`, lib/qdp_scalar_init.cc:60, 66, lib/qdp_parscalar_init.cc:294, 300 -/
def fresh (T : Nat) : List (Option M) := List.replicate T none

end

section
variable {K : Type} [CommRing K]

/-- single or double precision, the latter with the SSE2 or the SSE3 version of the inner product -/
inductive Prec where
  | single
  | double (sse3 : Bool)
deriving DecidableEq, Repr

def sumsqK : Prec → (Nat → Outcome K) → Int → Outcome K
  | .single => sumsqS
  | .double _ => sumsqD

/-- a pointer moved on -/
def shiftPtr (p : Nat → Outcome K) (o : Nat) : Nat → Outcome K := fun c => p (o + c)

/-- `norm2(s1, s)`, include/scalarsite_sse/qdp_scalarsite_sse_blas.h:2202-2251, include/scalarsite_sse/qdp_scalarsite_sse_blas_double.h:2555-2615: the number
handed to the global sum and the array afterwards -/
def norm2Sub (q : Prec) (F : Nat → Nat → K) (N T : Nat) (res : List (Option K)) (s : Sub) : Poss (K × List (Option K)) :=
  if s.ordRep then ordered (fun o n => sumsqK q (shiftPtr (ptr F N s.start) o) n) T res (s.stop - s.start + 1)
  else only do
    let v ← table (fun i => sumsqK q (ptr F N i) 1) s.table 0
    ok (v, res)

/-- `norm2(s1)`, include/scalarsite_sse/qdp_scalarsite_sse_blas.h:2253-2278, include/scalarsite_sse/qdp_scalarsite_sse_blas_double.h:2618-2656 -/
def norm2All (q : Prec) (F : Nat → Nat → K) (N T : Nat) (res : List (Option K)) (all : Sub) : Poss (K × List (Option K)) :=
  ordered (fun o n => sumsqK q (shiftPtr (ptr F N all.start) o) n) T res (all.stop - all.start + 1)

/-- `innerProduct(v1, v2, s)` in double precision, include/scalarsite_sse/qdp_scalarsite_sse_blas_double.h:2726-2809 -/
def innerSubD (b : Bool) (F G : Nat → Nat → K) (N T : Nat) (res : List (Option (K × K))) (s : Sub) : Poss ((K × K) × List (Option (K × K))) :=
  if s.ordRep then ordered (fun o n => vcdotD b (shiftPtr (ptr F N s.start) o) (shiftPtr (ptr G N s.start) o) n) T res (s.stop - s.start + 1)
  else only do
    let v ← table (fun i => vcdotD b (ptr F N i) (ptr G N i) 1) s.table 0
    ok (v, res)

/-- `innerProduct(v1, v2)` in double precision, include/scalarsite_sse/qdp_scalarsite_sse_blas_double.h:2660-2724 -/
def innerAllD (b : Bool) (F G : Nat → Nat → K) (N T : Nat) (res : List (Option (K × K))) (all : Sub) : Poss ((K × K) × List (Option (K × K))) :=
  ordered (fun o n => vcdotD b (shiftPtr (ptr F N all.start) o) (shiftPtr (ptr G N all.start) o) n) T res (all.stop - all.start + 1)

/-- `(s.end() - s.start() + 1)*Ns` -/
def timesNs (n : Int) : Outcome Int := if -2 ^ 31 ≤ n * 4 ∧ n * 4 < 2 ^ 31 then ok (n * 4) else ub

/-- `innerProduct(v1, v2, s)` in single precision, include/scalarsite_sse/qdp_scalarsite_sse_blas.h:2320-2378; `innerProduct(v1, v2)`, lines 2282-2318, is the
ordered case with `all` -/
def innerSubS (F G : Nat → Nat → K) (N : Nat) (s : Sub) : Outcome (K × K) :=
  if s.ordRep then do
    let n3 ← timesNs (s.stop - s.start + 1)
    vcdotS (ptr F N s.start) (ptr G N s.start) n3
  else table (fun i => vcdotS (ptr F N i) (ptr G N i) 4) s.table 0

/-- `innerProductReal(v1, v2, s)` in single precision, include/scalarsite_sse/qdp_scalarsite_sse_blas.h:2421-2471; without subset, lines 2383-2418 -/
def innerRealSubS (F G : Nat → Nat → K) (N : Nat) (s : Sub) : Outcome K :=
  if s.ordRep then do
    let n3 ← timesNs (s.stop - s.start + 1)
    vcdotRealS (ptr F N s.start) (ptr G N s.start) n3
  else table (fun i => vcdotRealS (ptr F N i) (ptr G N i) 4) s.table 0

/-- `innerProductReal(v1, v2, s)` in double precision, include/scalarsite_sse/qdp_scalarsite_sse_blas_double.h:2851-2903; without subset, lines 2813-2848 -/
def innerRealSubD (F G : Nat → Nat → K) (N : Nat) (s : Sub) : Outcome K :=
  if s.ordRep then vcdotRealD (ptr F N s.start) (ptr G N s.start) (s.stop - s.start + 1)
  else table (fun i => vcdotRealD (ptr F N i) (ptr G N i) 1) s.table 0

/-- `norm2(multi1d, s)`, include/scalarsite_sse/qdp_scalarsite_sse_blas.h:2502-2544, and the versions without subset, there 2474-2499 and
include/scalarsite_sse/qdp_scalarsite_sse_blas_double.h:2906-2930: the kernel is called directly, without threads -/
def norm2Arr (q : Prec) (N : Nat) (s : Sub) : List (Nat → Nat → K) → K → Outcome K
  | [], ltmp => ok ltmp
  | F :: s1, ltmp =>
    if s.ordRep then do
      let lltmp ← sumsqK q (ptr F N s.start) (s.stop - s.start + 1)
      norm2Arr q N s s1 (ltmp + lltmp)
    else do
      let ltmp ← table (fun i => sumsqK q (ptr F N i) 1) s.table ltmp
      norm2Arr q N s s1 ltmp

/-- the loops over two arrays of fields, include/scalarsite_sse/qdp_scalarsite_sse_blas.h:2567-2581, 2617-2632, 2642-2659, 2693-2705, 2740-2751, 2757-2769,
include/scalarsite_sse/qdp_scalarsite_sse_blas_double.h:2954-2968, 3003-3014; reading an element that the second array does not have is undefined -/
def arrays {M : Type} (call : (Nat → Nat → K) → (Nat → Nat → K) → M → Outcome M) : List (Nat → Nat → K) → List (Nat → Nat → K) → M → Outcome M
  | [], _, ip => ok ip
  | _ :: _, [], _ => ub
  | F :: v1, G :: v2, ip => do
    let ip ← call F G ip
    arrays call v1 v2 ip

/-- `innerProduct(multi1d, multi1d, s)` in single precision, include/scalarsite_sse/qdp_scalarsite_sse_blas.h:2594-2671; without subset, lines 2547-2592 -/
def innerArrS (N : Nat) (s : Sub) (v1 v2 : List (Nat → Nat → K)) : Outcome (K × K) :=
  if s.ordRep then do
    let n3 ← timesNs (s.stop - s.start + 1)
    arrays (fun F G ip => do let iip ← vcdotS (ptr F N s.start) (ptr G N s.start) n3; ok (ip + iip)) v1 v2 0
  else arrays (fun F G ip => table (fun i => vcdotS (ptr F N i) (ptr G N i) 4) s.table ip) v1 v2 0

/-- `innerProductReal(multi1d, multi1d, s)` in single precision, include/scalarsite_sse/qdp_scalarsite_sse_blas.h:2719-2782; without subset, lines 2674-2716 -/
def innerRealArrS (N : Nat) (s : Sub) (v1 v2 : List (Nat → Nat → K)) : Outcome K :=
  if s.ordRep then do
    let n3 ← timesNs (s.stop - s.start + 1)
    arrays (fun F G ip => do let iip ← vcdotRealS (ptr F N s.start) (ptr G N s.start) n3; ok (ip + iip)) v1 v2 0
  else arrays (fun F G ip => table (fun i => vcdotRealS (ptr F N i) (ptr G N i) 4) s.table ip) v1 v2 0

/-- `innerProduct(multi1d, multi1d)` in double precision, include/scalarsite_sse/qdp_scalarsite_sse_blas_double.h:2933-2979 -/
def innerArrD (b : Bool) (N : Nat) (all : Sub) (v1 v2 : List (Nat → Nat → K)) : Outcome (K × K) :=
  arrays (fun F G ip => do let iip ← vcdotD b (ptr F N all.start) (ptr G N all.start) (all.stop - all.start + 1); ok (ip + iip)) v1 v2 0

/-- `innerProductReal(multi1d, multi1d)` in double precision, include/scalarsite_sse/qdp_scalarsite_sse_blas_double.h:2984-3026 -/
def innerRealArrD (N : Nat) (all : Sub) (v1 v2 : List (Nat → Nat → K)) : Outcome K :=
  arrays (fun F G ip => do let iip ← vcdotRealD (ptr F N all.start) (ptr G N all.start) (all.stop - all.start + 1); ok (ip + iip)) v1 v2 0

end
end Verif.SseReduce
