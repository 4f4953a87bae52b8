import Verif.SseBlas
import Verif.KernelTables
/-
The SSE kernels with chiral projections and the specialisations of `evaluate` that call them, written by tools/gen_sse_g5.py from the text of
include/scalarsite_sse, in the form of `SseBlasTables`.  Lines 940 and 985 of qdp_scalarsite_sse_blas_g5.h, declarations of unused variables initialised from a
name that is not declared, are left out.
-/
namespace Verif.SseG5.Tables
open Verif.Kernel Verif.Blas Verif.SseBlas

/-- `axpyz_g5ProjPlus`, include/scalarsite_sse/sse_blas_vaxpy3_g5.h:24-57 -/
def axpyz_g5ProjPlus : Kern := {
  params := [.out, .s 0, .x, .y]
  nreg := 40
  mul := 1
  sub := 0
  pre := [
  .set 0 (.s 0), .set 1 .zero, .set 2 .zero, .set 3 .zero, .set 1 (.r 0), .set 2 (.r 0), .set 3 (.r 0)]
  body := [
  .ld 4 .x, .ld 5 .x, .ld 6 .x, .ld 7 .x, .ld 8 .y, .ld 9 .y, .ld 10 .y, .ld 11 .y, .st (.add (.mul (.r 0) (.r 4)) (.r 8)),
    .st (.add (.mul (.r 1) (.r 5)) (.r 9)), .st (.add (.mul (.r 2) (.r 6)) (.r 10)), .st (.add (.mul (.r 3) (.r 7)) (.r 11)), .ld 12 .x,
    .ld 13 .x, .ld 14 .x, .ld 15 .x, .ld 16 .y, .ld 17 .y, .ld 18 .y, .ld 19 .y, .st (.add (.mul (.r 0) (.r 12)) (.r 16)),
    .st (.add (.mul (.r 1) (.r 13)) (.r 17)), .st (.add (.mul (.r 2) (.r 14)) (.r 18)), .st (.add (.mul (.r 3) (.r 15)) (.r 19)),
    .ld 20 .x, .ld 21 .x, .ld 22 .x, .ld 23 .x, .ld 24 .y, .ld 25 .y, .ld 26 .y, .ld 27 .y, .st (.add (.mul (.r 0) (.r 20)) (.r 24)),
    .st (.add (.mul (.r 1) (.r 21)) (.r 25)), .st (.add (.mul (.r 2) (.r 22)) (.r 26)), .st (.add (.mul (.r 3) (.r 23)) (.r 27)),
    .ld 28 .x, .ld 29 .x, .ld 30 .x, .ld 31 .x, .st (.mul (.r 0) (.r 28)), .st (.mul (.r 1) (.r 29)), .st (.mul (.r 2) (.r 30)),
    .st (.mul (.r 3) (.r 31)), .ld 32 .x, .ld 33 .x, .ld 34 .x, .ld 35 .x, .st (.mul (.r 0) (.r 32)), .st (.mul (.r 1) (.r 33)),
    .st (.mul (.r 2) (.r 34)), .st (.mul (.r 3) (.r 35)), .ld 36 .x, .ld 37 .x, .ld 38 .x, .ld 39 .x, .st (.mul (.r 0) (.r 36)),
    .st (.mul (.r 1) (.r 37)), .st (.mul (.r 2) (.r 38)), .st (.mul (.r 3) (.r 39)), .skip .y 12]
  post := [] }

/-- `axpyz_g5ProjMinus`, include/scalarsite_sse/sse_blas_vaxpy3_g5.h:61-94 -/
def axpyz_g5ProjMinus : Kern := {
  params := [.out, .s 0, .x, .y]
  nreg := 40
  mul := 1
  sub := 0
  pre := [
  .set 0 (.s 0), .set 1 .zero, .set 2 .zero, .set 3 .zero, .set 1 (.r 0), .set 2 (.r 0), .set 3 (.r 0)]
  body := [
  .ld 4 .x, .ld 5 .x, .ld 6 .x, .ld 7 .x, .st (.mul (.r 0) (.r 4)), .st (.mul (.r 1) (.r 5)), .st (.mul (.r 2) (.r 6)),
    .st (.mul (.r 3) (.r 7)), .ld 8 .x, .ld 9 .x, .ld 10 .x, .ld 11 .x, .st (.mul (.r 0) (.r 8)), .st (.mul (.r 1) (.r 9)),
    .st (.mul (.r 2) (.r 10)), .st (.mul (.r 3) (.r 11)), .ld 12 .x, .ld 13 .x, .ld 14 .x, .ld 15 .x, .st (.mul (.r 0) (.r 12)),
    .st (.mul (.r 1) (.r 13)), .st (.mul (.r 2) (.r 14)), .st (.mul (.r 3) (.r 15)), .ld 16 .x, .ld 17 .x, .ld 18 .x, .ld 19 .x,
    .skip .y 12, .ld 20 .y, .ld 21 .y, .ld 22 .y, .ld 23 .y, .st (.add (.mul (.r 0) (.r 16)) (.r 20)),
    .st (.add (.mul (.r 1) (.r 17)) (.r 21)), .st (.add (.mul (.r 2) (.r 18)) (.r 22)), .st (.add (.mul (.r 3) (.r 19)) (.r 23)),
    .ld 24 .x, .ld 25 .x, .ld 26 .x, .ld 27 .x, .ld 28 .y, .ld 29 .y, .ld 30 .y, .ld 31 .y, .st (.add (.mul (.r 0) (.r 24)) (.r 28)),
    .st (.add (.mul (.r 1) (.r 25)) (.r 29)), .st (.add (.mul (.r 2) (.r 26)) (.r 30)), .st (.add (.mul (.r 3) (.r 27)) (.r 31)),
    .ld 32 .x, .ld 33 .x, .ld 34 .x, .ld 35 .x, .ld 36 .y, .ld 37 .y, .ld 38 .y, .ld 39 .y, .st (.add (.mul (.r 0) (.r 32)) (.r 36)),
    .st (.add (.mul (.r 1) (.r 33)) (.r 37)), .st (.add (.mul (.r 2) (.r 34)) (.r 38)), .st (.add (.mul (.r 3) (.r 35)) (.r 39))]
  post := [] }

/-- `axmyz_g5ProjPlus`, include/scalarsite_sse/sse_blas_vaxpy3_g5.h:101-139 -/
def axmyz_g5ProjPlus : Kern := {
  params := [.out, .s 0, .x, .y]
  nreg := 40
  mul := 1
  sub := 0
  pre := [
  .set 0 (.s 0), .set 1 .zero, .set 2 .zero, .set 3 .zero, .set 1 (.r 0), .set 2 (.r 0), .set 3 (.r 0)]
  body := [
  .ld 4 .x, .ld 5 .x, .ld 6 .x, .ld 7 .x, .ld 8 .y, .ld 9 .y, .ld 10 .y, .ld 11 .y, .st (.sub (.mul (.r 0) (.r 4)) (.r 8)),
    .st (.sub (.mul (.r 1) (.r 5)) (.r 9)), .st (.sub (.mul (.r 2) (.r 6)) (.r 10)), .st (.sub (.mul (.r 3) (.r 7)) (.r 11)), .ld 12 .x,
    .ld 13 .x, .ld 14 .x, .ld 15 .x, .ld 16 .y, .ld 17 .y, .ld 18 .y, .ld 19 .y, .st (.sub (.mul (.r 0) (.r 12)) (.r 16)),
    .st (.sub (.mul (.r 1) (.r 13)) (.r 17)), .st (.sub (.mul (.r 2) (.r 14)) (.r 18)), .st (.sub (.mul (.r 3) (.r 15)) (.r 19)),
    .ld 20 .x, .ld 21 .x, .ld 22 .x, .ld 23 .x, .ld 24 .y, .ld 25 .y, .ld 26 .y, .ld 27 .y, .st (.sub (.mul (.r 0) (.r 20)) (.r 24)),
    .st (.sub (.mul (.r 1) (.r 21)) (.r 25)), .st (.sub (.mul (.r 2) (.r 22)) (.r 26)), .st (.sub (.mul (.r 3) (.r 23)) (.r 27)),
    .ld 28 .x, .ld 29 .x, .ld 30 .x, .ld 31 .x, .st (.mul (.r 0) (.r 28)), .st (.mul (.r 1) (.r 29)), .st (.mul (.r 2) (.r 30)),
    .st (.mul (.r 3) (.r 31)), .ld 32 .x, .ld 33 .x, .ld 34 .x, .ld 35 .x, .st (.mul (.r 0) (.r 32)), .st (.mul (.r 1) (.r 33)),
    .st (.mul (.r 2) (.r 34)), .st (.mul (.r 3) (.r 35)), .ld 36 .x, .ld 37 .x, .ld 38 .x, .ld 39 .x, .st (.mul (.r 0) (.r 36)),
    .st (.mul (.r 1) (.r 37)), .st (.mul (.r 2) (.r 38)), .st (.mul (.r 3) (.r 39)), .skip .y 12]
  post := [] }

/-- `axmyz_g5ProjMinus`, include/scalarsite_sse/sse_blas_vaxpy3_g5.h:143-175 -/
def axmyz_g5ProjMinus : Kern := {
  params := [.out, .s 0, .x, .y]
  nreg := 40
  mul := 1
  sub := 0
  pre := [
  .set 0 (.s 0), .set 1 .zero, .set 2 .zero, .set 3 .zero, .set 1 (.r 0), .set 2 (.r 0), .set 3 (.r 0)]
  body := [
  .ld 4 .x, .ld 5 .x, .ld 6 .x, .ld 7 .x, .st (.mul (.r 0) (.r 4)), .st (.mul (.r 1) (.r 5)), .st (.mul (.r 2) (.r 6)),
    .st (.mul (.r 3) (.r 7)), .ld 8 .x, .ld 9 .x, .ld 10 .x, .ld 11 .x, .st (.mul (.r 0) (.r 8)), .st (.mul (.r 1) (.r 9)),
    .st (.mul (.r 2) (.r 10)), .st (.mul (.r 3) (.r 11)), .ld 12 .x, .ld 13 .x, .ld 14 .x, .ld 15 .x, .st (.mul (.r 0) (.r 12)),
    .st (.mul (.r 1) (.r 13)), .st (.mul (.r 2) (.r 14)), .st (.mul (.r 3) (.r 15)), .ld 16 .x, .ld 17 .x, .ld 18 .x, .ld 19 .x,
    .skip .y 12, .ld 20 .y, .ld 21 .y, .ld 22 .y, .ld 23 .y, .st (.sub (.mul (.r 0) (.r 16)) (.r 20)),
    .st (.sub (.mul (.r 1) (.r 17)) (.r 21)), .st (.sub (.mul (.r 2) (.r 18)) (.r 22)), .st (.sub (.mul (.r 3) (.r 19)) (.r 23)),
    .ld 24 .x, .ld 25 .x, .ld 26 .x, .ld 27 .x, .ld 28 .y, .ld 29 .y, .ld 30 .y, .ld 31 .y, .st (.sub (.mul (.r 0) (.r 24)) (.r 28)),
    .st (.sub (.mul (.r 1) (.r 25)) (.r 29)), .st (.sub (.mul (.r 2) (.r 26)) (.r 30)), .st (.sub (.mul (.r 3) (.r 27)) (.r 31)),
    .ld 32 .x, .ld 33 .x, .ld 34 .x, .ld 35 .x, .ld 36 .y, .ld 37 .y, .ld 38 .y, .ld 39 .y, .st (.sub (.mul (.r 0) (.r 32)) (.r 36)),
    .st (.sub (.mul (.r 1) (.r 33)) (.r 37)), .st (.sub (.mul (.r 2) (.r 34)) (.r 38)), .st (.sub (.mul (.r 3) (.r 35)) (.r 39))]
  post := [] }

/-- `xpayz_g5ProjPlus`, include/scalarsite_sse/sse_blas_vaypx3_g5.h:24-57 -/
def xpayz_g5ProjPlus : Kern := {
  params := [.out, .s 0, .x, .y]
  nreg := 40
  mul := 1
  sub := 0
  pre := [
  .set 0 (.s 0), .set 1 .zero, .set 2 .zero, .set 3 .zero, .set 1 (.r 0), .set 2 (.r 0), .set 3 (.r 0)]
  body := [
  .ld 4 .y, .ld 5 .y, .ld 6 .y, .ld 7 .y, .ld 8 .x, .ld 9 .x, .ld 10 .x, .ld 11 .x, .st (.add (.mul (.r 0) (.r 4)) (.r 8)),
    .st (.add (.mul (.r 1) (.r 5)) (.r 9)), .st (.add (.mul (.r 2) (.r 6)) (.r 10)), .st (.add (.mul (.r 3) (.r 7)) (.r 11)), .ld 12 .y,
    .ld 13 .y, .ld 14 .y, .ld 15 .y, .ld 16 .x, .ld 17 .x, .ld 18 .x, .ld 19 .x, .st (.add (.mul (.r 0) (.r 12)) (.r 16)),
    .st (.add (.mul (.r 1) (.r 13)) (.r 17)), .st (.add (.mul (.r 2) (.r 14)) (.r 18)), .st (.add (.mul (.r 3) (.r 15)) (.r 19)),
    .ld 20 .y, .ld 21 .y, .ld 22 .y, .ld 23 .y, .ld 24 .x, .ld 25 .x, .ld 26 .x, .ld 27 .x, .st (.add (.mul (.r 0) (.r 20)) (.r 24)),
    .st (.add (.mul (.r 1) (.r 21)) (.r 25)), .st (.add (.mul (.r 2) (.r 22)) (.r 26)), .st (.add (.mul (.r 3) (.r 23)) (.r 27)),
    .ld 28 .x, .ld 29 .x, .ld 30 .x, .ld 31 .x, .st (.r 28), .st (.r 29), .st (.r 30), .st (.r 31), .ld 32 .x, .ld 33 .x, .ld 34 .x,
    .ld 35 .x, .st (.r 32), .st (.r 33), .st (.r 34), .st (.r 35), .ld 36 .x, .ld 37 .x, .ld 38 .x, .ld 39 .x, .st (.r 36), .st (.r 37),
    .st (.r 38), .st (.r 39), .skip .y 12]
  post := [] }

/-- `xpayz_g5ProjMinus`, include/scalarsite_sse/sse_blas_vaypx3_g5.h:61-93 -/
def xpayz_g5ProjMinus : Kern := {
  params := [.out, .s 0, .x, .y]
  nreg := 40
  mul := 1
  sub := 0
  pre := [
  .set 0 (.s 0), .set 1 .zero, .set 2 .zero, .set 3 .zero, .set 1 (.r 0), .set 2 (.r 0), .set 3 (.r 0)]
  body := [
  .ld 4 .x, .ld 5 .x, .ld 6 .x, .ld 7 .x, .st (.r 4), .st (.r 5), .st (.r 6), .st (.r 7), .ld 8 .x, .ld 9 .x, .ld 10 .x, .ld 11 .x,
    .st (.r 8), .st (.r 9), .st (.r 10), .st (.r 11), .ld 12 .x, .ld 13 .x, .ld 14 .x, .ld 15 .x, .st (.r 12), .st (.r 13), .st (.r 14),
    .st (.r 15), .skip .y 12, .ld 16 .y, .ld 17 .y, .ld 18 .y, .ld 19 .y, .ld 20 .x, .ld 21 .x, .ld 22 .x, .ld 23 .x,
    .st (.add (.mul (.r 0) (.r 16)) (.r 20)), .st (.add (.mul (.r 1) (.r 17)) (.r 21)), .st (.add (.mul (.r 2) (.r 18)) (.r 22)),
    .st (.add (.mul (.r 3) (.r 19)) (.r 23)), .ld 24 .y, .ld 25 .y, .ld 26 .y, .ld 27 .y, .ld 28 .x, .ld 29 .x, .ld 30 .x, .ld 31 .x,
    .st (.add (.mul (.r 0) (.r 24)) (.r 28)), .st (.add (.mul (.r 1) (.r 25)) (.r 29)), .st (.add (.mul (.r 2) (.r 26)) (.r 30)),
    .st (.add (.mul (.r 3) (.r 27)) (.r 31)), .ld 32 .y, .ld 33 .y, .ld 34 .y, .ld 35 .y, .ld 36 .x, .ld 37 .x, .ld 38 .x, .ld 39 .x,
    .st (.add (.mul (.r 0) (.r 32)) (.r 36)), .st (.add (.mul (.r 1) (.r 33)) (.r 37)), .st (.add (.mul (.r 2) (.r 34)) (.r 38)),
    .st (.add (.mul (.r 3) (.r 35)) (.r 39))]
  post := [] }

/-- `xmayz_g5ProjPlus`, include/scalarsite_sse/sse_blas_vaypx3_g5.h:100-138 -/
def xmayz_g5ProjPlus : Kern := {
  params := [.out, .s 0, .x, .y]
  nreg := 40
  mul := 1
  sub := 0
  pre := [
  .set 0 (.s 0), .set 1 .zero, .set 2 .zero, .set 3 .zero, .set 1 (.r 0), .set 2 (.r 0), .set 3 (.r 0)]
  body := [
  .ld 4 .x, .ld 5 .x, .ld 6 .x, .ld 7 .x, .ld 8 .y, .ld 9 .y, .ld 10 .y, .ld 11 .y, .st (.sub (.r 4) (.mul (.r 0) (.r 8))),
    .st (.sub (.r 5) (.mul (.r 1) (.r 9))), .st (.sub (.r 6) (.mul (.r 2) (.r 10))), .st (.sub (.r 7) (.mul (.r 3) (.r 11))), .ld 12 .x,
    .ld 13 .x, .ld 14 .x, .ld 15 .x, .ld 16 .y, .ld 17 .y, .ld 18 .y, .ld 19 .y, .st (.sub (.r 12) (.mul (.r 0) (.r 16))),
    .st (.sub (.r 13) (.mul (.r 1) (.r 17))), .st (.sub (.r 14) (.mul (.r 2) (.r 18))), .st (.sub (.r 15) (.mul (.r 3) (.r 19))),
    .ld 20 .x, .ld 21 .x, .ld 22 .x, .ld 23 .x, .ld 24 .y, .ld 25 .y, .ld 26 .y, .ld 27 .y, .st (.sub (.r 20) (.mul (.r 0) (.r 24))),
    .st (.sub (.r 21) (.mul (.r 1) (.r 25))), .st (.sub (.r 22) (.mul (.r 2) (.r 26))), .st (.sub (.r 23) (.mul (.r 3) (.r 27))),
    .ld 28 .x, .ld 29 .x, .ld 30 .x, .ld 31 .x, .st (.r 28), .st (.r 29), .st (.r 30), .st (.r 31), .ld 32 .x, .ld 33 .x, .ld 34 .x,
    .ld 35 .x, .st (.r 32), .st (.r 33), .st (.r 34), .st (.r 35), .ld 36 .x, .ld 37 .x, .ld 38 .x, .ld 39 .x, .st (.r 36), .st (.r 37),
    .st (.r 38), .st (.r 39), .skip .y 12]
  post := [] }

/-- `xmayz_g5ProjMinus`, include/scalarsite_sse/sse_blas_vaypx3_g5.h:142-175 -/
def xmayz_g5ProjMinus : Kern := {
  params := [.out, .s 0, .x, .y]
  nreg := 40
  mul := 1
  sub := 0
  pre := [
  .set 0 (.s 0), .set 1 .zero, .set 2 .zero, .set 3 .zero, .set 1 (.r 0), .set 2 (.r 0), .set 3 (.r 0)]
  body := [
  .ld 4 .x, .ld 5 .x, .ld 6 .x, .ld 7 .x, .st (.r 4), .st (.r 5), .st (.r 6), .st (.r 7), .ld 8 .x, .ld 9 .x, .ld 10 .x, .ld 11 .x,
    .st (.r 8), .st (.r 9), .st (.r 10), .st (.r 11), .ld 12 .x, .ld 13 .x, .ld 14 .x, .ld 15 .x, .st (.r 12), .st (.r 13), .st (.r 14),
    .st (.r 15), .ld 16 .x, .ld 17 .x, .ld 18 .x, .ld 19 .x, .skip .y 12, .ld 20 .y, .ld 21 .y, .ld 22 .y, .ld 23 .y,
    .st (.sub (.r 16) (.mul (.r 0) (.r 20))), .st (.sub (.r 17) (.mul (.r 1) (.r 21))), .st (.sub (.r 18) (.mul (.r 2) (.r 22))),
    .st (.sub (.r 19) (.mul (.r 3) (.r 23))), .ld 24 .x, .ld 25 .x, .ld 26 .x, .ld 27 .x, .ld 28 .y, .ld 29 .y, .ld 30 .y, .ld 31 .y,
    .st (.sub (.r 24) (.mul (.r 0) (.r 28))), .st (.sub (.r 25) (.mul (.r 1) (.r 29))), .st (.sub (.r 26) (.mul (.r 2) (.r 30))),
    .st (.sub (.r 27) (.mul (.r 3) (.r 31))), .ld 32 .x, .ld 33 .x, .ld 34 .x, .ld 35 .x, .ld 36 .y, .ld 37 .y, .ld 38 .y, .ld 39 .y,
    .st (.sub (.r 32) (.mul (.r 0) (.r 36))), .st (.sub (.r 33) (.mul (.r 1) (.r 37))), .st (.sub (.r 34) (.mul (.r 2) (.r 38))),
    .st (.sub (.r 35) (.mul (.r 3) (.r 39)))]
  post := [] }

/-- `add_g5ProjPlus`, include/scalarsite_sse/sse_blas_vadd3_g5.h:23-51 -/
def add_g5ProjPlus : Kern := {
  params := [.out, .x, .y]
  nreg := 36
  mul := 1
  sub := 0
  pre := []
  body := [
  .ld 0 .y, .ld 1 .y, .ld 2 .y, .ld 3 .y, .ld 4 .x, .ld 5 .x, .ld 6 .x, .ld 7 .x, .st (.add (.r 0) (.r 4)), .st (.add (.r 1) (.r 5)),
    .st (.add (.r 2) (.r 6)), .st (.add (.r 3) (.r 7)), .ld 8 .y, .ld 9 .y, .ld 10 .y, .ld 11 .y, .ld 12 .x, .ld 13 .x, .ld 14 .x,
    .ld 15 .x, .st (.add (.r 8) (.r 12)), .st (.add (.r 9) (.r 13)), .st (.add (.r 10) (.r 14)), .st (.add (.r 11) (.r 15)), .ld 16 .y,
    .ld 17 .y, .ld 18 .y, .ld 19 .y, .ld 20 .x, .ld 21 .x, .ld 22 .x, .ld 23 .x, .st (.add (.r 16) (.r 20)), .st (.add (.r 17) (.r 21)),
    .st (.add (.r 18) (.r 22)), .st (.add (.r 19) (.r 23)), .ld 24 .x, .ld 25 .x, .ld 26 .x, .ld 27 .x, .st (.r 24), .st (.r 25),
    .st (.r 26), .st (.r 27), .ld 28 .x, .ld 29 .x, .ld 30 .x, .ld 31 .x, .st (.r 28), .st (.r 29), .st (.r 30), .st (.r 31), .ld 32 .x,
    .ld 33 .x, .ld 34 .x, .ld 35 .x, .st (.r 32), .st (.r 33), .st (.r 34), .st (.r 35), .skip .y 12]
  post := [] }

/-- `add_g5ProjMinus`, include/scalarsite_sse/sse_blas_vadd3_g5.h:55-82 -/
def add_g5ProjMinus : Kern := {
  params := [.out, .x, .y]
  nreg := 36
  mul := 1
  sub := 0
  pre := []
  body := [
  .ld 0 .x, .ld 1 .x, .ld 2 .x, .ld 3 .x, .st (.r 0), .st (.r 1), .st (.r 2), .st (.r 3), .ld 4 .x, .ld 5 .x, .ld 6 .x, .ld 7 .x,
    .st (.r 4), .st (.r 5), .st (.r 6), .st (.r 7), .ld 8 .x, .ld 9 .x, .ld 10 .x, .ld 11 .x, .st (.r 8), .st (.r 9), .st (.r 10),
    .st (.r 11), .ld 12 .x, .ld 13 .x, .ld 14 .x, .ld 15 .x, .skip .y 12, .ld 16 .y, .ld 17 .y, .ld 18 .y, .ld 19 .y,
    .st (.add (.r 12) (.r 16)), .st (.add (.r 13) (.r 17)), .st (.add (.r 14) (.r 18)), .st (.add (.r 15) (.r 19)), .ld 20 .x, .ld 21 .x,
    .ld 22 .x, .ld 23 .x, .ld 24 .y, .ld 25 .y, .ld 26 .y, .ld 27 .y, .st (.add (.r 20) (.r 24)), .st (.add (.r 21) (.r 25)),
    .st (.add (.r 22) (.r 26)), .st (.add (.r 23) (.r 27)), .ld 28 .x, .ld 29 .x, .ld 30 .x, .ld 31 .x, .ld 32 .y, .ld 33 .y, .ld 34 .y,
    .ld 35 .y, .st (.add (.r 28) (.r 32)), .st (.add (.r 29) (.r 33)), .st (.add (.r 30) (.r 34)), .st (.add (.r 31) (.r 35))]
  post := [] }

/-- `sub_g5ProjPlus`, include/scalarsite_sse/sse_blas_vadd3_g5.h:89-119 -/
def sub_g5ProjPlus : Kern := {
  params := [.out, .x, .y]
  nreg := 36
  mul := 1
  sub := 0
  pre := []
  body := [
  .ld 0 .x, .ld 1 .x, .ld 2 .x, .ld 3 .x, .ld 4 .y, .ld 5 .y, .ld 6 .y, .ld 7 .y, .st (.sub (.r 0) (.r 4)), .st (.sub (.r 1) (.r 5)),
    .st (.sub (.r 2) (.r 6)), .st (.sub (.r 3) (.r 7)), .ld 8 .x, .ld 9 .x, .ld 10 .x, .ld 11 .x, .ld 12 .y, .ld 13 .y, .ld 14 .y,
    .ld 15 .y, .st (.sub (.r 8) (.r 12)), .st (.sub (.r 9) (.r 13)), .st (.sub (.r 10) (.r 14)), .st (.sub (.r 11) (.r 15)), .ld 16 .x,
    .ld 17 .x, .ld 18 .x, .ld 19 .x, .ld 20 .y, .ld 21 .y, .ld 22 .y, .ld 23 .y, .st (.sub (.r 16) (.r 20)), .st (.sub (.r 17) (.r 21)),
    .st (.sub (.r 18) (.r 22)), .st (.sub (.r 19) (.r 23)), .ld 24 .x, .ld 25 .x, .ld 26 .x, .ld 27 .x, .st (.r 24), .st (.r 25),
    .st (.r 26), .st (.r 27), .ld 28 .x, .ld 29 .x, .ld 30 .x, .ld 31 .x, .st (.r 28), .st (.r 29), .st (.r 30), .st (.r 31), .ld 32 .x,
    .ld 33 .x, .ld 34 .x, .ld 35 .x, .st (.r 32), .st (.r 33), .st (.r 34), .st (.r 35), .skip .y 12]
  post := [] }

/-- `sub_g5ProjMinus`, include/scalarsite_sse/sse_blas_vadd3_g5.h:123-149 -/
def sub_g5ProjMinus : Kern := {
  params := [.out, .x, .y]
  nreg := 36
  mul := 1
  sub := 0
  pre := []
  body := [
  .ld 0 .x, .ld 1 .x, .ld 2 .x, .ld 3 .x, .st (.r 0), .st (.r 1), .st (.r 2), .st (.r 3), .ld 4 .x, .ld 5 .x, .ld 6 .x, .ld 7 .x,
    .st (.r 4), .st (.r 5), .st (.r 6), .st (.r 7), .ld 8 .x, .ld 9 .x, .ld 10 .x, .ld 11 .x, .st (.r 8), .st (.r 9), .st (.r 10),
    .st (.r 11), .ld 12 .x, .ld 13 .x, .ld 14 .x, .ld 15 .x, .skip .y 12, .ld 16 .y, .ld 17 .y, .ld 18 .y, .ld 19 .y,
    .st (.sub (.r 12) (.r 16)), .st (.sub (.r 13) (.r 17)), .st (.sub (.r 14) (.r 18)), .st (.sub (.r 15) (.r 19)), .ld 20 .x, .ld 21 .x,
    .ld 22 .x, .ld 23 .x, .ld 24 .y, .ld 25 .y, .ld 26 .y, .ld 27 .y, .st (.sub (.r 20) (.r 24)), .st (.sub (.r 21) (.r 25)),
    .st (.sub (.r 22) (.r 26)), .st (.sub (.r 23) (.r 27)), .ld 28 .x, .ld 29 .x, .ld 30 .x, .ld 31 .x, .ld 32 .y, .ld 33 .y, .ld 34 .y,
    .ld 35 .y, .st (.sub (.r 28) (.r 32)), .st (.sub (.r 29) (.r 33)), .st (.sub (.r 30) (.r 34)), .st (.sub (.r 31) (.r 35))]
  post := [] }

/-- `scal_g5ProjPlus`, include/scalarsite_sse/sse_blas_vscal3_g5.h:24-62 -/
def scal_g5ProjPlus : Kern := {
  params := [.out, .s 0, .x]
  nreg := 20
  mul := 1
  sub := 0
  pre := [
  .set 0 (.s 0), .set 1 .zero, .set 2 .zero, .set 3 .zero, .set 1 (.r 0), .set 2 (.r 0), .set 3 (.r 0), .set 4 .zero, .set 5 .zero,
    .set 6 .zero, .set 7 .zero, .set 5 (.r 4), .set 6 (.r 4), .set 7 (.r 4)]
  body := [
  .ld 8 .x, .ld 9 .x, .ld 10 .x, .ld 11 .x, .st (.mul (.r 0) (.r 8)), .st (.mul (.r 1) (.r 9)), .st (.mul (.r 2) (.r 10)),
    .st (.mul (.r 3) (.r 11)), .ld 12 .x, .ld 13 .x, .ld 14 .x, .ld 15 .x, .st (.mul (.r 0) (.r 12)), .st (.mul (.r 1) (.r 13)),
    .st (.mul (.r 2) (.r 14)), .st (.mul (.r 3) (.r 15)), .ld 16 .x, .ld 17 .x, .ld 18 .x, .ld 19 .x, .st (.mul (.r 0) (.r 16)),
    .st (.mul (.r 1) (.r 17)), .st (.mul (.r 2) (.r 18)), .st (.mul (.r 3) (.r 19)), .st (.r 4), .st (.r 5), .st (.r 6), .st (.r 7),
    .st (.r 4), .st (.r 5), .st (.r 6), .st (.r 7), .st (.r 4), .st (.r 5), .st (.r 6), .st (.r 7), .skip .x 12]
  post := [] }

/-- `scal_g5ProjMinus`, include/scalarsite_sse/sse_blas_vscal3_g5.h:67-107 -/
def scal_g5ProjMinus : Kern := {
  params := [.out, .s 0, .x]
  nreg := 20
  mul := 1
  sub := 0
  pre := [
  .set 0 (.s 0), .set 1 .zero, .set 2 .zero, .set 3 .zero, .set 1 (.r 0), .set 2 (.r 0), .set 3 (.r 0), .set 4 .zero, .set 5 .zero,
    .set 6 .zero, .set 7 .zero, .set 5 (.r 4), .set 6 (.r 4), .set 7 (.r 4)]
  body := [
  .st (.r 4), .st (.r 5), .st (.r 6), .st (.r 7), .st (.r 4), .st (.r 5), .st (.r 6), .st (.r 7), .st (.r 4), .st (.r 5), .st (.r 6),
    .st (.r 7), .skip .x 12, .ld 8 .x, .ld 9 .x, .ld 10 .x, .ld 11 .x, .st (.mul (.r 0) (.r 8)), .st (.mul (.r 1) (.r 9)),
    .st (.mul (.r 2) (.r 10)), .st (.mul (.r 3) (.r 11)), .ld 12 .x, .ld 13 .x, .ld 14 .x, .ld 15 .x, .st (.mul (.r 0) (.r 12)),
    .st (.mul (.r 1) (.r 13)), .st (.mul (.r 2) (.r 14)), .st (.mul (.r 3) (.r 15)), .ld 16 .x, .ld 17 .x, .ld 18 .x, .ld 19 .x,
    .st (.mul (.r 0) (.r 16)), .st (.mul (.r 1) (.r 17)), .st (.mul (.r 2) (.r 18)), .st (.mul (.r 3) (.r 19))]
  post := [] }

/-- `axpbyz_g5ProjPlus`, include/scalarsite_sse/sse_blas_vaxpby3_g5.h:24-59 -/
def axpbyz_g5ProjPlus : Kern := {
  params := [.out, .s 0, .x, .s 2, .y]
  nreg := 44
  mul := 1
  sub := 0
  pre := [
  .set 0 (.s 0), .set 1 .zero, .set 2 .zero, .set 3 .zero, .set 4 (.s 2), .set 5 .zero, .set 6 .zero, .set 7 .zero, .set 1 (.r 0),
    .set 2 (.r 0), .set 3 (.r 0), .set 5 (.r 4), .set 6 (.r 4), .set 7 (.r 4)]
  body := [
  .ld 8 .x, .ld 9 .x, .ld 10 .x, .ld 11 .x, .ld 12 .y, .ld 13 .y, .ld 14 .y, .ld 15 .y,
    .st (.add (.mul (.r 0) (.r 8)) (.mul (.r 4) (.r 12))), .st (.add (.mul (.r 1) (.r 9)) (.mul (.r 5) (.r 13))),
    .st (.add (.mul (.r 2) (.r 10)) (.mul (.r 6) (.r 14))), .st (.add (.mul (.r 3) (.r 11)) (.mul (.r 7) (.r 15))), .ld 16 .x, .ld 17 .x,
    .ld 18 .x, .ld 19 .x, .ld 20 .y, .ld 21 .y, .ld 22 .y, .ld 23 .y, .st (.add (.mul (.r 0) (.r 16)) (.mul (.r 4) (.r 20))),
    .st (.add (.mul (.r 1) (.r 17)) (.mul (.r 5) (.r 21))), .st (.add (.mul (.r 2) (.r 18)) (.mul (.r 6) (.r 22))),
    .st (.add (.mul (.r 3) (.r 19)) (.mul (.r 7) (.r 23))), .ld 24 .x, .ld 25 .x, .ld 26 .x, .ld 27 .x, .ld 28 .y, .ld 29 .y, .ld 30 .y,
    .ld 31 .y, .st (.add (.mul (.r 0) (.r 24)) (.mul (.r 4) (.r 28))), .st (.add (.mul (.r 1) (.r 25)) (.mul (.r 5) (.r 29))),
    .st (.add (.mul (.r 2) (.r 26)) (.mul (.r 6) (.r 30))), .st (.add (.mul (.r 3) (.r 27)) (.mul (.r 7) (.r 31))), .ld 32 .x, .ld 33 .x,
    .ld 34 .x, .ld 35 .x, .st (.mul (.r 0) (.r 32)), .st (.mul (.r 1) (.r 33)), .st (.mul (.r 2) (.r 34)), .st (.mul (.r 3) (.r 35)),
    .ld 36 .x, .ld 37 .x, .ld 38 .x, .ld 39 .x, .st (.mul (.r 0) (.r 36)), .st (.mul (.r 1) (.r 37)), .st (.mul (.r 2) (.r 38)),
    .st (.mul (.r 3) (.r 39)), .ld 40 .x, .ld 41 .x, .ld 42 .x, .ld 43 .x, .st (.mul (.r 0) (.r 40)), .st (.mul (.r 1) (.r 41)),
    .st (.mul (.r 2) (.r 42)), .st (.mul (.r 3) (.r 43)), .skip .y 12]
  post := [] }

/-- `axpbyz_g5ProjMinus`, include/scalarsite_sse/sse_blas_vaxpby3_g5.h:63-99 -/
def axpbyz_g5ProjMinus : Kern := {
  params := [.out, .s 0, .x, .s 2, .y]
  nreg := 44
  mul := 1
  sub := 0
  pre := [
  .set 0 (.s 0), .set 1 .zero, .set 2 .zero, .set 3 .zero, .set 1 (.r 0), .set 2 (.r 0), .set 3 (.r 0), .set 4 (.s 2), .set 5 .zero,
    .set 6 .zero, .set 7 .zero, .set 5 (.r 4), .set 6 (.r 4), .set 7 (.r 4)]
  body := [
  .ld 8 .x, .ld 9 .x, .ld 10 .x, .ld 11 .x, .st (.mul (.r 0) (.r 8)), .st (.mul (.r 1) (.r 9)), .st (.mul (.r 2) (.r 10)),
    .st (.mul (.r 3) (.r 11)), .ld 12 .x, .ld 13 .x, .ld 14 .x, .ld 15 .x, .st (.mul (.r 0) (.r 12)), .st (.mul (.r 1) (.r 13)),
    .st (.mul (.r 2) (.r 14)), .st (.mul (.r 3) (.r 15)), .ld 16 .x, .ld 17 .x, .ld 18 .x, .ld 19 .x, .st (.mul (.r 0) (.r 16)),
    .st (.mul (.r 1) (.r 17)), .st (.mul (.r 2) (.r 18)), .st (.mul (.r 3) (.r 19)), .ld 20 .x, .ld 21 .x, .ld 22 .x, .ld 23 .x,
    .skip .y 12, .ld 24 .y, .ld 25 .y, .ld 26 .y, .ld 27 .y, .st (.add (.mul (.r 0) (.r 20)) (.mul (.r 4) (.r 24))),
    .st (.add (.mul (.r 1) (.r 21)) (.mul (.r 5) (.r 25))), .st (.add (.mul (.r 2) (.r 22)) (.mul (.r 6) (.r 26))),
    .st (.add (.mul (.r 3) (.r 23)) (.mul (.r 7) (.r 27))), .ld 28 .x, .ld 29 .x, .ld 30 .x, .ld 31 .x, .ld 32 .y, .ld 33 .y, .ld 34 .y,
    .ld 35 .y, .st (.add (.mul (.r 0) (.r 28)) (.mul (.r 4) (.r 32))), .st (.add (.mul (.r 1) (.r 29)) (.mul (.r 5) (.r 33))),
    .st (.add (.mul (.r 2) (.r 30)) (.mul (.r 6) (.r 34))), .st (.add (.mul (.r 3) (.r 31)) (.mul (.r 7) (.r 35))), .ld 36 .x, .ld 37 .x,
    .ld 38 .x, .ld 39 .x, .ld 40 .y, .ld 41 .y, .ld 42 .y, .ld 43 .y, .st (.add (.mul (.r 0) (.r 36)) (.mul (.r 4) (.r 40))),
    .st (.add (.mul (.r 1) (.r 37)) (.mul (.r 5) (.r 41))), .st (.add (.mul (.r 2) (.r 38)) (.mul (.r 6) (.r 42))),
    .st (.add (.mul (.r 3) (.r 39)) (.mul (.r 7) (.r 43)))]
  post := [] }

/-- `axmbyz_g5ProjPlus`, include/scalarsite_sse/sse_blas_vaxpby3_g5.h:104-141 -/
def axmbyz_g5ProjPlus : Kern := {
  params := [.out, .s 0, .x, .s 2, .y]
  nreg := 44
  mul := 1
  sub := 0
  pre := [
  .set 0 (.s 0), .set 1 .zero, .set 2 .zero, .set 3 .zero, .set 4 (.s 2), .set 5 .zero, .set 6 .zero, .set 7 .zero, .set 1 (.r 0),
    .set 2 (.r 0), .set 3 (.r 0), .set 5 (.r 4), .set 6 (.r 4), .set 7 (.r 4)]
  body := [
  .ld 8 .x, .ld 9 .x, .ld 10 .x, .ld 11 .x, .ld 12 .y, .ld 13 .y, .ld 14 .y, .ld 15 .y,
    .st (.sub (.mul (.r 0) (.r 8)) (.mul (.r 4) (.r 12))), .st (.sub (.mul (.r 1) (.r 9)) (.mul (.r 5) (.r 13))),
    .st (.sub (.mul (.r 2) (.r 10)) (.mul (.r 6) (.r 14))), .st (.sub (.mul (.r 3) (.r 11)) (.mul (.r 7) (.r 15))), .ld 16 .x, .ld 17 .x,
    .ld 18 .x, .ld 19 .x, .ld 20 .y, .ld 21 .y, .ld 22 .y, .ld 23 .y, .st (.sub (.mul (.r 0) (.r 16)) (.mul (.r 4) (.r 20))),
    .st (.sub (.mul (.r 1) (.r 17)) (.mul (.r 5) (.r 21))), .st (.sub (.mul (.r 2) (.r 18)) (.mul (.r 6) (.r 22))),
    .st (.sub (.mul (.r 3) (.r 19)) (.mul (.r 7) (.r 23))), .ld 24 .x, .ld 25 .x, .ld 26 .x, .ld 27 .x, .ld 28 .y, .ld 29 .y, .ld 30 .y,
    .ld 31 .y, .st (.sub (.mul (.r 0) (.r 24)) (.mul (.r 4) (.r 28))), .st (.sub (.mul (.r 1) (.r 25)) (.mul (.r 5) (.r 29))),
    .st (.sub (.mul (.r 2) (.r 26)) (.mul (.r 6) (.r 30))), .st (.sub (.mul (.r 3) (.r 27)) (.mul (.r 7) (.r 31))), .ld 32 .x, .ld 33 .x,
    .ld 34 .x, .ld 35 .x, .st (.mul (.r 0) (.r 32)), .st (.mul (.r 1) (.r 33)), .st (.mul (.r 2) (.r 34)), .st (.mul (.r 3) (.r 35)),
    .ld 36 .x, .ld 37 .x, .ld 38 .x, .ld 39 .x, .st (.mul (.r 0) (.r 36)), .st (.mul (.r 1) (.r 37)), .st (.mul (.r 2) (.r 38)),
    .st (.mul (.r 3) (.r 39)), .ld 40 .x, .ld 41 .x, .ld 42 .x, .ld 43 .x, .st (.mul (.r 0) (.r 40)), .st (.mul (.r 1) (.r 41)),
    .st (.mul (.r 2) (.r 42)), .st (.mul (.r 3) (.r 43)), .skip .y 12]
  post := [] }

/-- `axmbyz_g5ProjMinus`, include/scalarsite_sse/sse_blas_vaxpby3_g5.h:145-181 -/
def axmbyz_g5ProjMinus : Kern := {
  params := [.out, .s 0, .x, .s 2, .y]
  nreg := 44
  mul := 1
  sub := 0
  pre := [
  .set 0 (.s 0), .set 1 .zero, .set 2 .zero, .set 3 .zero, .set 1 (.r 0), .set 2 (.r 0), .set 3 (.r 0), .set 4 (.s 2), .set 5 .zero,
    .set 6 .zero, .set 7 .zero, .set 5 (.r 4), .set 6 (.r 4), .set 7 (.r 4)]
  body := [
  .ld 8 .x, .ld 9 .x, .ld 10 .x, .ld 11 .x, .st (.mul (.r 0) (.r 8)), .st (.mul (.r 1) (.r 9)), .st (.mul (.r 2) (.r 10)),
    .st (.mul (.r 3) (.r 11)), .ld 12 .x, .ld 13 .x, .ld 14 .x, .ld 15 .x, .st (.mul (.r 0) (.r 12)), .st (.mul (.r 1) (.r 13)),
    .st (.mul (.r 2) (.r 14)), .st (.mul (.r 3) (.r 15)), .ld 16 .x, .ld 17 .x, .ld 18 .x, .ld 19 .x, .st (.mul (.r 0) (.r 16)),
    .st (.mul (.r 1) (.r 17)), .st (.mul (.r 2) (.r 18)), .st (.mul (.r 3) (.r 19)), .ld 20 .x, .ld 21 .x, .ld 22 .x, .ld 23 .x,
    .skip .y 12, .ld 24 .y, .ld 25 .y, .ld 26 .y, .ld 27 .y, .st (.sub (.mul (.r 0) (.r 20)) (.mul (.r 4) (.r 24))),
    .st (.sub (.mul (.r 1) (.r 21)) (.mul (.r 5) (.r 25))), .st (.sub (.mul (.r 2) (.r 22)) (.mul (.r 6) (.r 26))),
    .st (.sub (.mul (.r 3) (.r 23)) (.mul (.r 7) (.r 27))), .ld 28 .x, .ld 29 .x, .ld 30 .x, .ld 31 .x, .ld 32 .y, .ld 33 .y, .ld 34 .y,
    .ld 35 .y, .st (.sub (.mul (.r 0) (.r 28)) (.mul (.r 4) (.r 32))), .st (.sub (.mul (.r 1) (.r 29)) (.mul (.r 5) (.r 33))),
    .st (.sub (.mul (.r 2) (.r 30)) (.mul (.r 6) (.r 34))), .st (.sub (.mul (.r 3) (.r 31)) (.mul (.r 7) (.r 35))), .ld 36 .x, .ld 37 .x,
    .ld 38 .x, .ld 39 .x, .ld 40 .y, .ld 41 .y, .ld 42 .y, .ld 43 .y, .st (.sub (.mul (.r 0) (.r 36)) (.mul (.r 4) (.r 40))),
    .st (.sub (.mul (.r 1) (.r 37)) (.mul (.r 5) (.r 41))), .st (.sub (.mul (.r 2) (.r 38)) (.mul (.r 6) (.r 42))),
    .st (.sub (.mul (.r 3) (.r 39)) (.mul (.r 7) (.r 43)))]
  post := [] }

/-- include/scalarsite_sse/qdp_scalarsite_sse_blas_g5.h:36-75 -/
def g00 : SEntry := {
  op := .addAssign
  rhs := (.bin .mul .scal (.un .projPlus .vec))
  ordered := ⟨⟨xpayz_g5ProjPlus, xpayz_g5ProjPlus, 0⟩, [.dest, .sc [.l], .dest, .at [.r, .c]]⟩
  same := none
  unordered := ⟨⟨xpayz_g5ProjPlus, xpayz_g5ProjPlus, 0⟩, [.dest, .sc [.l], .dest, .at [.r, .c]]⟩
  threaded := false }

/-- include/scalarsite_sse/qdp_scalarsite_sse_blas_g5.h:80-121 -/
def g01 : SEntry := {
  op := .addAssign
  rhs := (.bin .mul .scal (.un .projMinus .vec))
  ordered := ⟨⟨xpayz_g5ProjMinus, xpayz_g5ProjMinus, 0⟩, [.dest, .sc [.l], .dest, .at [.r, .c]]⟩
  same := none
  unordered := ⟨⟨xpayz_g5ProjMinus, xpayz_g5ProjMinus, 0⟩, [.dest, .sc [.l], .dest, .at [.r, .c]]⟩
  threaded := false }

/-- include/scalarsite_sse/qdp_scalarsite_sse_blas_g5.h:127-168 -/
def g02 : SEntry := {
  op := .subtractAssign
  rhs := (.bin .mul .scal (.un .projPlus .vec))
  ordered := ⟨⟨xmayz_g5ProjPlus, xmayz_g5ProjPlus, 0⟩, [.dest, .sc [.l], .dest, .at [.r, .c]]⟩
  same := none
  unordered := ⟨⟨xmayz_g5ProjPlus, xmayz_g5ProjPlus, 0⟩, [.dest, .sc [.l], .dest, .at [.r, .c]]⟩
  threaded := false }

/-- include/scalarsite_sse/qdp_scalarsite_sse_blas_g5.h:173-215 -/
def g03 : SEntry := {
  op := .subtractAssign
  rhs := (.bin .mul .scal (.un .projMinus .vec))
  ordered := ⟨⟨xmayz_g5ProjMinus, xmayz_g5ProjMinus, 0⟩, [.dest, .sc [.l], .dest, .at [.r, .c]]⟩
  same := none
  unordered := ⟨⟨xmayz_g5ProjMinus, xmayz_g5ProjMinus, 0⟩, [.dest, .sc [.l], .dest, .at [.r, .c]]⟩
  threaded := false }

/-- include/scalarsite_sse/qdp_scalarsite_sse_blas_g5.h:221-257 -/
def g04 : SEntry := {
  op := .addAssign
  rhs := (.un .projPlus .vec)
  ordered := ⟨⟨add_g5ProjPlus, add_g5ProjPlus, 0⟩, [.dest, .dest, .at [.c]]⟩
  same := none
  unordered := ⟨⟨add_g5ProjPlus, add_g5ProjPlus, 0⟩, [.dest, .dest, .at [.c]]⟩
  threaded := false }

/-- include/scalarsite_sse/qdp_scalarsite_sse_blas_g5.h:263-297 -/
def g05 : SEntry := {
  op := .addAssign
  rhs := (.un .projMinus .vec)
  ordered := ⟨⟨add_g5ProjMinus, add_g5ProjMinus, 0⟩, [.dest, .dest, .at [.c]]⟩
  same := none
  unordered := ⟨⟨add_g5ProjMinus, add_g5ProjMinus, 0⟩, [.dest, .dest, .at [.c]]⟩
  threaded := false }

/-- include/scalarsite_sse/qdp_scalarsite_sse_blas_g5.h:303-334 -/
def g06 : SEntry := {
  op := .subtractAssign
  rhs := (.un .projPlus .vec)
  ordered := ⟨⟨sub_g5ProjPlus, sub_g5ProjPlus, 0⟩, [.dest, .dest, .at [.c]]⟩
  same := none
  unordered := ⟨⟨sub_g5ProjPlus, sub_g5ProjPlus, 0⟩, [.dest, .dest, .at [.c]]⟩
  threaded := false }

/-- include/scalarsite_sse/qdp_scalarsite_sse_blas_g5.h:340-376 -/
def g07 : SEntry := {
  op := .subtractAssign
  rhs := (.un .projMinus .vec)
  ordered := ⟨⟨sub_g5ProjMinus, sub_g5ProjMinus, 0⟩, [.dest, .dest, .at [.c]]⟩
  same := none
  unordered := ⟨⟨sub_g5ProjMinus, sub_g5ProjMinus, 0⟩, [.dest, .dest, .at [.c]]⟩
  threaded := false }

/-- include/scalarsite_sse/qdp_scalarsite_sse_blas_g5.h:381-444 -/
def g08 : SEntry := {
  op := .assign
  rhs := (.bin .add .vec (.bin .mul .scal (.un .projPlus .vec)))
  ordered := ⟨⟨xpayz_g5ProjPlus, xpayz_g5ProjPlus, 0⟩, [.dest, .sc [.r, .l], .at [.l], .at [.r, .r, .c]]⟩
  same := none
  unordered := ⟨⟨xpayz_g5ProjPlus, xpayz_g5ProjPlus, 0⟩, [.dest, .sc [.r, .l], .at [.l], .at [.r, .r, .c]]⟩
  threaded := false }

/-- include/scalarsite_sse/qdp_scalarsite_sse_blas_g5.h:449-511 -/
def g09 : SEntry := {
  op := .assign
  rhs := (.bin .add .vec (.bin .mul .scal (.un .projMinus .vec)))
  ordered := ⟨⟨xpayz_g5ProjMinus, xpayz_g5ProjMinus, 0⟩, [.dest, .sc [.r, .l], .at [.l], .at [.r, .r, .c]]⟩
  same := none
  unordered := ⟨⟨xpayz_g5ProjMinus, xpayz_g5ProjMinus, 0⟩, [.dest, .sc [.r, .l], .at [.l], .at [.r, .r, .c]]⟩
  threaded := false }

/-- include/scalarsite_sse/qdp_scalarsite_sse_blas_g5.h:516-578 -/
def g10 : SEntry := {
  op := .assign
  rhs := (.bin .sub .vec (.bin .mul .scal (.un .projPlus .vec)))
  ordered := ⟨⟨xmayz_g5ProjPlus, xmayz_g5ProjPlus, 0⟩, [.dest, .sc [.r, .l], .at [.l], .at [.r, .r, .c]]⟩
  same := none
  unordered := ⟨⟨xmayz_g5ProjPlus, xmayz_g5ProjPlus, 0⟩, [.dest, .sc [.r, .l], .at [.l], .at [.r, .r, .c]]⟩
  threaded := false }

/-- include/scalarsite_sse/qdp_scalarsite_sse_blas_g5.h:583-647 -/
def g11 : SEntry := {
  op := .assign
  rhs := (.bin .sub .vec (.bin .mul .scal (.un .projMinus .vec)))
  ordered := ⟨⟨xmayz_g5ProjMinus, xmayz_g5ProjMinus, 0⟩, [.dest, .sc [.r, .l], .at [.l], .at [.r, .r, .c]]⟩
  same := none
  unordered := ⟨⟨xmayz_g5ProjMinus, xmayz_g5ProjMinus, 0⟩, [.dest, .sc [.r, .l], .at [.l], .at [.r, .r, .c]]⟩
  threaded := false }

/-- include/scalarsite_sse/qdp_scalarsite_sse_blas_g5.h:652-712 -/
def g12 : SEntry := {
  op := .assign
  rhs := (.bin .add (.bin .mul .scal .vec) (.un .projPlus .vec))
  ordered := ⟨⟨axpyz_g5ProjPlus, axpyz_g5ProjPlus, 0⟩, [.dest, .sc [.l, .l], .at [.l, .r], .at [.r, .c]]⟩
  same := none
  unordered := ⟨⟨axpyz_g5ProjPlus, axpyz_g5ProjPlus, 0⟩, [.dest, .sc [.l, .l], .at [.l, .r], .at [.r, .c]]⟩
  threaded := false }

/-- include/scalarsite_sse/qdp_scalarsite_sse_blas_g5.h:717-775 -/
def g13 : SEntry := {
  op := .assign
  rhs := (.bin .add (.bin .mul .scal .vec) (.un .projMinus .vec))
  ordered := ⟨⟨axpyz_g5ProjMinus, axpyz_g5ProjMinus, 0⟩, [.dest, .sc [.l, .l], .at [.l, .r], .at [.r, .c]]⟩
  same := none
  unordered := ⟨⟨axpyz_g5ProjMinus, axpyz_g5ProjMinus, 0⟩, [.dest, .sc [.l, .l], .at [.l, .r], .at [.r, .c]]⟩
  threaded := false }

/-- include/scalarsite_sse/qdp_scalarsite_sse_blas_g5.h:781-839 -/
def g14 : SEntry := {
  op := .assign
  rhs := (.bin .sub (.bin .mul .scal .vec) (.un .projPlus .vec))
  ordered := ⟨⟨axmyz_g5ProjPlus, axmyz_g5ProjPlus, 0⟩, [.dest, .sc [.l, .l], .at [.l, .r], .at [.r, .c]]⟩
  same := none
  unordered := ⟨⟨axmyz_g5ProjPlus, axmyz_g5ProjPlus, 0⟩, [.dest, .sc [.l, .l], .at [.l, .r], .at [.r, .c]]⟩
  threaded := false }

/-- include/scalarsite_sse/qdp_scalarsite_sse_blas_g5.h:844-902 -/
def g15 : SEntry := {
  op := .assign
  rhs := (.bin .sub (.bin .mul .scal .vec) (.un .projMinus .vec))
  ordered := ⟨⟨axmyz_g5ProjMinus, axmyz_g5ProjMinus, 0⟩, [.dest, .sc [.l, .l], .at [.l, .r], .at [.r, .c]]⟩
  same := none
  unordered := ⟨⟨axmyz_g5ProjMinus, axmyz_g5ProjMinus, 0⟩, [.dest, .sc [.l, .l], .at [.l, .r], .at [.r, .c]]⟩
  threaded := false }

/-- include/scalarsite_sse/qdp_scalarsite_sse_blas_g5.h:907-947 -/
def g16 : SEntry := {
  op := .assign
  rhs := (.bin .mul .scal (.un .projPlus .vec))
  ordered := ⟨⟨scal_g5ProjPlus, scal_g5ProjPlus, 0⟩, [.dest, .sc [.l], .at [.r, .c]]⟩
  same := none
  unordered := ⟨⟨scal_g5ProjPlus, scal_g5ProjPlus, 0⟩, [.dest, .sc [.l], .at [.r, .c]]⟩
  threaded := false }

/-- include/scalarsite_sse/qdp_scalarsite_sse_blas_g5.h:952-992 -/
def g17 : SEntry := {
  op := .assign
  rhs := (.bin .mul .scal (.un .projMinus .vec))
  ordered := ⟨⟨scal_g5ProjMinus, scal_g5ProjMinus, 0⟩, [.dest, .sc [.l], .at [.r, .c]]⟩
  same := none
  unordered := ⟨⟨scal_g5ProjMinus, scal_g5ProjMinus, 0⟩, [.dest, .sc [.l], .at [.r, .c]]⟩
  threaded := false }

/-- include/scalarsite_sse/qdp_scalarsite_sse_blas_g5.h:997-1069 -/
def g18 : SEntry := {
  op := .assign
  rhs := (.bin .add (.bin .mul .scal .vec) (.bin .mul .scal (.un .projPlus .vec)))
  ordered := ⟨⟨axpbyz_g5ProjPlus, axpbyz_g5ProjPlus, 0⟩, [.dest, .sc [.l, .l], .at [.l, .r], .sc [.r, .l], .at [.r, .r, .c]]⟩
  same := none
  unordered := ⟨⟨axpbyz_g5ProjPlus, axpbyz_g5ProjPlus, 0⟩, [.dest, .sc [.l, .l], .at [.l, .r], .sc [.r, .l], .at [.r, .r, .c]]⟩
  threaded := false }

/-- include/scalarsite_sse/qdp_scalarsite_sse_blas_g5.h:1074-1146 -/
def g19 : SEntry := {
  op := .assign
  rhs := (.bin .add (.bin .mul .scal .vec) (.bin .mul .scal (.un .projMinus .vec)))
  ordered := ⟨⟨axpbyz_g5ProjMinus, axpbyz_g5ProjMinus, 0⟩, [.dest, .sc [.l, .l], .at [.l, .r], .sc [.r, .l], .at [.r, .r, .c]]⟩
  same := none
  unordered := ⟨⟨axpbyz_g5ProjMinus, axpbyz_g5ProjMinus, 0⟩, [.dest, .sc [.l, .l], .at [.l, .r], .sc [.r, .l], .at [.r, .r, .c]]⟩
  threaded := false }

/-- include/scalarsite_sse/qdp_scalarsite_sse_blas_g5.h:1151-1222 -/
def g20 : SEntry := {
  op := .assign
  rhs := (.bin .sub (.bin .mul .scal .vec) (.bin .mul .scal (.un .projPlus .vec)))
  ordered := ⟨⟨axmbyz_g5ProjPlus, axmbyz_g5ProjPlus, 0⟩, [.dest, .sc [.l, .l], .at [.l, .r], .sc [.r, .l], .at [.r, .r, .c]]⟩
  same := none
  unordered := ⟨⟨axmbyz_g5ProjPlus, axmbyz_g5ProjPlus, 0⟩, [.dest, .sc [.l, .l], .at [.l, .r], .sc [.r, .l], .at [.r, .r, .c]]⟩
  threaded := false }

/-- include/scalarsite_sse/qdp_scalarsite_sse_blas_g5.h:1227-1299 -/
def g21 : SEntry := {
  op := .assign
  rhs := (.bin .sub (.bin .mul .scal .vec) (.bin .mul .scal (.un .projMinus .vec)))
  ordered := ⟨⟨axmbyz_g5ProjMinus, axmbyz_g5ProjMinus, 0⟩, [.dest, .sc [.l, .l], .at [.l, .r], .sc [.r, .l], .at [.r, .r, .c]]⟩
  same := none
  unordered := ⟨⟨axmbyz_g5ProjMinus, axmbyz_g5ProjMinus, 0⟩, [.dest, .sc [.l, .l], .at [.l, .r], .sc [.r, .l], .at [.r, .r, .c]]⟩
  threaded := false }

/-- include/scalarsite_sse/qdp_scalarsite_sse_blas_g5.h:1304-1355 -/
def g22 : SEntry := {
  op := .assign
  rhs := (.bin .mul .scal (.bin .gmul (.gamma 15) .vec))
  ordered := ⟨⟨Kernel.Tables.scal_g5, Kernel.Tables.scal_g5, 0⟩, [.dest, .sc [.l], .at [.r, .r]]⟩
  same := none
  unordered := ⟨⟨Kernel.Tables.scal_g5, Kernel.Tables.scal_g5, 0⟩, [.dest, .sc [.l], .at [.r, .r]]⟩
  threaded := false }

/-- include/scalarsite_sse/qdp_scalarsite_sse_blas_g5.h:1362-1430 -/
def g23 : SEntry := {
  op := .assign
  rhs := (.bin .sub .vec (.bin .mul .scal (.bin .gmul (.gamma 15) .vec)))
  ordered := ⟨⟨Kernel.Tables.xmayz_g5, Kernel.Tables.xmayz_g5, 0⟩, [.dest, .sc [.r, .l], .at [.l], .at [.r, .r, .r]]⟩
  same := none
  unordered := ⟨⟨Kernel.Tables.xmayz_g5, Kernel.Tables.xmayz_g5, 0⟩, [.dest, .sc [.r, .l], .at [.l], .at [.r, .r, .r]]⟩
  threaded := false }

/-- include/scalarsite_sse/qdp_scalarsite_sse_blas_g5.h:1437-1520 -/
def g24 : SEntry := {
  op := .assign
  rhs := (.bin .add (.bin .mul .scal .vec) (.bin .mul .scal (.bin .gmul (.gamma 15) .vec)))
  ordered := ⟨⟨Kernel.Tables.axpbyz_g5, Kernel.Tables.axpbyz_g5, 0⟩, [.dest, .sc [.l, .l], .at [.l, .r], .sc [.r, .l], .at [.r, .r, .r]]⟩
  same := none
  unordered := ⟨⟨Kernel.Tables.axpbyz_g5, Kernel.Tables.axpbyz_g5, 0⟩, [.dest, .sc [.l, .l], .at [.l, .r], .sc [.r, .l], .at [.r, .r, .r]]⟩
  threaded := false }

/-- include/scalarsite_sse/qdp_scalarsite_sse_blas_g5.h:1526-1607 -/
def g25 : SEntry := {
  op := .assign
  rhs := (.bin .gmul (.gamma 15) (.bin .sub (.bin .mul .scal .vec) (.bin .mul .scal .vec)))
  ordered := ⟨⟨Kernel.Tables.g5_axmbyz, Kernel.Tables.g5_axmbyz, 0⟩, [.dest, .sc [.r, .l, .l], .at [.r, .l, .r], .sc [.r, .r, .l], .at [.r, .r, .r]]⟩
  same := none
  unordered := ⟨⟨Kernel.Tables.g5_axmbyz, Kernel.Tables.g5_axmbyz, 0⟩, [.dest, .sc [.r, .l, .l], .at [.r, .l, .r], .sc [.r, .r, .l], .at [.r, .r, .r]]⟩
  threaded := false }

/-- include/scalarsite_sse/qdp_scalarsite_sse_blas_g5.h:1614-1708 -/
def g26 : SEntry := {
  op := .assign
  rhs := (.bin .add (.bin .mul .scal .vec) (.bin .mul .scal (.bin .gmul (.gamma 15) (.un .timesI .vec))))
  ordered := ⟨⟨Kernel.Tables.axpbyz_ig5, Kernel.Tables.axpbyz_ig5, 0⟩, [.dest, .sc [.l, .l], .at [.l, .r], .sc [.r, .l], .at [.r, .r, .r, .c]]⟩
  same := none
  unordered := ⟨⟨Kernel.Tables.axpbyz_ig5, Kernel.Tables.axpbyz_ig5, 0⟩, [.dest, .sc [.l, .l], .at [.l, .r], .sc [.r, .l], .at [.r, .r, .r, .c]]⟩
  threaded := false }

/-- include/scalarsite_sse/qdp_scalarsite_sse_blas_g5.h:1714-1809 -/
def g27 : SEntry := {
  op := .assign
  rhs := (.bin .sub (.bin .mul .scal .vec) (.bin .mul .scal (.bin .gmul (.gamma 15) (.un .timesI .vec))))
  ordered := ⟨⟨Kernel.Tables.axmbyz_ig5, Kernel.Tables.axmbyz_ig5, 0⟩, [.dest, .sc [.l, .l], .at [.l, .r], .sc [.r, .l], .at [.r, .r, .r, .c]]⟩
  same := none
  unordered := ⟨⟨Kernel.Tables.axmbyz_ig5, Kernel.Tables.axmbyz_ig5, 0⟩, [.dest, .sc [.l, .l], .at [.l, .r], .sc [.r, .l], .at [.r, .r, .r, .c]]⟩
  threaded := false }

/-- include/scalarsite_sse/qdp_scalarsite_sse_blas_g5.h:1815-1897 -/
def g28 : SEntry := {
  op := .assign
  rhs := (.bin .add .vec (.bin .mul .scal (.bin .gmul (.gamma 15) (.un .timesI .vec))))
  ordered := ⟨⟨Kernel.Tables.xpayz_ig5, Kernel.Tables.xpayz_ig5, 0⟩, [.dest, .sc [.r, .l], .at [.l], .at [.r, .r, .r, .c]]⟩
  same := none
  unordered := ⟨⟨Kernel.Tables.xpayz_ig5, Kernel.Tables.xpayz_ig5, 0⟩, [.dest, .sc [.r, .l], .at [.l], .at [.r, .r, .r, .c]]⟩
  threaded := false }

/-- include/scalarsite_sse/qdp_scalarsite_sse_blas_g5.h:1903-1987 -/
def g29 : SEntry := {
  op := .assign
  rhs := (.bin .sub .vec (.bin .mul .scal (.bin .gmul (.gamma 15) (.un .timesI .vec))))
  ordered := ⟨⟨Kernel.Tables.xmayz_ig5, Kernel.Tables.xmayz_ig5, 0⟩, [.dest, .sc [.r, .l], .at [.l], .at [.r, .r, .r, .c]]⟩
  same := none
  unordered := ⟨⟨Kernel.Tables.xmayz_ig5, Kernel.Tables.xmayz_ig5, 0⟩, [.dest, .sc [.r, .l], .at [.l], .at [.r, .r, .r, .c]]⟩
  threaded := false }

/-- include/scalarsite_sse/qdp_scalarsite_sse_blas_g5.h:1995-2074 -/
def g30 : SEntry := {
  op := .addAssign
  rhs := (.bin .mul .scal (.bin .gmul (.gamma 15) (.un .timesI .vec)))
  ordered := ⟨⟨Kernel.Tables.xpayz_ig5, Kernel.Tables.xpayz_ig5, 0⟩, [.dest, .sc [.l], .dest, .at [.r, .r, .c]]⟩
  same := none
  unordered := ⟨⟨Kernel.Tables.xpayz_ig5, Kernel.Tables.xpayz_ig5, 0⟩, [.dest, .sc [.l], .dest, .at [.r, .r, .c]]⟩
  threaded := false }

/-- include/scalarsite_sse/qdp_scalarsite_sse_blas_g5.h:2081-2160 -/
def g31 : SEntry := {
  op := .subtractAssign
  rhs := (.bin .mul .scal (.bin .gmul (.gamma 15) (.un .timesI .vec)))
  ordered := ⟨⟨Kernel.Tables.xmayz_ig5, Kernel.Tables.xmayz_ig5, 0⟩, [.dest, .sc [.l], .dest, .at [.r, .r, .c]]⟩
  same := none
  unordered := ⟨⟨Kernel.Tables.xmayz_ig5, Kernel.Tables.xmayz_ig5, 0⟩, [.dest, .sc [.l], .dest, .at [.r, .r, .c]]⟩
  threaded := false }

/-- the kernels -/
def kernels : List Kern := [axpyz_g5ProjPlus, axpyz_g5ProjMinus, axmyz_g5ProjPlus, axmyz_g5ProjMinus, xpayz_g5ProjPlus, xpayz_g5ProjMinus, xmayz_g5ProjPlus, xmayz_g5ProjMinus, add_g5ProjPlus, add_g5ProjMinus, sub_g5ProjPlus, sub_g5ProjMinus, scal_g5ProjPlus, scal_g5ProjMinus, axpbyz_g5ProjPlus, axpbyz_g5ProjMinus, axmbyz_g5ProjPlus, axmbyz_g5ProjMinus]

/-- the generic kernels of the same names, include/scalarsite_generic -/
def generics : List Kern := [Kernel.Tables.axpyz_g5ProjPlus, Kernel.Tables.axpyz_g5ProjMinus, Kernel.Tables.axmyz_g5ProjPlus, Kernel.Tables.axmyz_g5ProjMinus, Kernel.Tables.xpayz_g5ProjPlus, Kernel.Tables.xpayz_g5ProjMinus, Kernel.Tables.xmayz_g5ProjPlus, Kernel.Tables.xmayz_g5ProjMinus, Kernel.Tables.add_g5ProjPlus, Kernel.Tables.add_g5ProjMinus, Kernel.Tables.sub_g5ProjPlus, Kernel.Tables.sub_g5ProjMinus, Kernel.Tables.scal_g5ProjPlus, Kernel.Tables.scal_g5ProjMinus, Kernel.Tables.axpbyz_g5ProjPlus, Kernel.Tables.axpbyz_g5ProjMinus, Kernel.Tables.axmbyz_g5ProjPlus, Kernel.Tables.axmbyz_g5ProjMinus]

/-- the specialisations -/
def entries : List SEntry := [g00, g01, g02, g03, g04, g05, g06, g07, g08, g09, g10, g11, g12, g13, g14, g15, g16, g17, g18, g19, g20, g21, g22, g23, g24, g25, g26, g27, g28, g29, g30, g31]

end Verif.SseG5.Tables
