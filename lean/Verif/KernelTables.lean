import Verif.Kernel
/-
The vector kernels of include/scalarsite_generic, written by tools/gen_kernels.py from the text of the headers: one entry per statement,
casts between `float` and `double` dropped, declarations dropped, and the loop `for i: Out[i] = e(X[i], Y[i])` written with one cursor per array.
-/
namespace Verif.Kernel.Tables
open Verif.Kernel

/-- `vaxpy3`, include/scalarsite_generic/generic_blas_vaxpy3.h:14-100 -/
def vaxpy3 : Kern := {
  params := [.out, .s 0, .x, .y]
  nreg := 2
  mul := 24
  sub := 0
  pre := []
  body := [
  .ld 0 .x, .ld 1 .y, .st (.add (.mul (.s 0) (.r 0)) (.r 1))]
  post := [] }

/-- `vaxmy3`, include/scalarsite_generic/generic_blas_vaxmy3.h:15-96 -/
def vaxmy3 : Kern := {
  params := [.out, .s 0, .x, .y]
  nreg := 2
  mul := 24
  sub := 0
  pre := []
  body := [
  .ld 0 .x, .ld 1 .y, .st (.sub (.mul (.s 0) (.r 0)) (.r 1))]
  post := [] }

/-- `vaxpby3`, include/scalarsite_generic/generic_blas_vaxpby3.h:15-103 -/
def vaxpby3 : Kern := {
  params := [.out, .s 0, .x, .s 2, .y]
  nreg := 2
  mul := 24
  sub := 0
  pre := []
  body := [
  .ld 0 .x, .ld 1 .y, .st (.add (.mul (.s 0) (.r 0)) (.mul (.s 2) (.r 1)))]
  post := [] }

/-- `vaxmby3`, include/scalarsite_generic/generic_blas_vaxmby3.h:14-103 -/
def vaxmby3 : Kern := {
  params := [.out, .s 0, .x, .s 2, .y]
  nreg := 2
  mul := 24
  sub := 0
  pre := []
  body := [
  .ld 0 .x, .ld 1 .y, .st (.sub (.mul (.s 0) (.r 0)) (.mul (.s 2) (.r 1)))]
  post := [] }

/-- `vscal`, include/scalarsite_generic/generic_blas_vscal.h:15-99 -/
def vscal : Kern := {
  params := [.out, .s 0, .x]
  nreg := 1
  mul := 24
  sub := 0
  pre := []
  body := [
  .ld 0 .x, .st (.mul (.s 0) (.r 0))]
  post := [] }

/-- `vadd`, include/scalarsite_generic/generic_blas_vadd.h:15-113 -/
def vadd : Kern := {
  params := [.out, .x, .y]
  nreg := 2
  mul := 24
  sub := 0
  pre := []
  body := [
  .ld 0 .x, .ld 1 .y, .st (.add (.r 0) (.r 1))]
  post := [] }

/-- `vsub`, include/scalarsite_generic/generic_blas_vsub.h:15-113 -/
def vsub : Kern := {
  params := [.out, .x, .y]
  nreg := 2
  mul := 24
  sub := 0
  pre := []
  body := [
  .ld 0 .x, .ld 1 .y, .st (.sub (.r 0) (.r 1))]
  post := [] }

/-- `vcscal`, include/scalarsite_generic/generic_blas_vcscal.h:14-97 -/
def vcscal : Kern := {
  params := [.out, .s 0, .x]
  nreg := 12
  mul := 4
  sub := 1
  pre := [
  .ld 0 .x, .ld 1 .x, .ld 2 .x, .ld 3 .x, .ld 4 .x, .ld 5 .x]
  body := [
  .set 6 (.mul (.s 0) (.r 0)), .set 7 (.mul (.s 1) (.r 0)), .ld 0 .x, .set 6 (.sub (.r 6) (.mul (.s 1) (.r 1))), .st (.r 6),
    .set 7 (.add (.r 7) (.mul (.s 0) (.r 1))), .st (.r 7), .ld 1 .x, .set 8 (.mul (.s 0) (.r 2)), .set 9 (.mul (.s 1) (.r 2)), .ld 2 .x,
    .set 8 (.sub (.r 8) (.mul (.s 1) (.r 3))), .st (.r 8), .set 9 (.add (.r 9) (.mul (.s 0) (.r 3))), .st (.r 9), .ld 3 .x,
    .set 10 (.mul (.s 0) (.r 4)), .set 11 (.mul (.s 1) (.r 4)), .ld 4 .x, .set 10 (.sub (.r 10) (.mul (.s 1) (.r 5))), .st (.r 10),
    .set 11 (.add (.r 11) (.mul (.s 0) (.r 5))), .st (.r 11), .ld 5 .x]
  post := [
  .set 6 (.mul (.s 0) (.r 0)), .set 7 (.mul (.s 1) (.r 0)), .set 6 (.sub (.r 6) (.mul (.s 1) (.r 1))), .st (.r 6),
    .set 7 (.add (.r 7) (.mul (.s 0) (.r 1))), .st (.r 7), .set 8 (.mul (.s 0) (.r 2)), .set 9 (.mul (.s 1) (.r 2)),
    .set 8 (.sub (.r 8) (.mul (.s 1) (.r 3))), .st (.r 8), .set 9 (.add (.r 9) (.mul (.s 0) (.r 3))), .st (.r 9),
    .set 10 (.mul (.s 0) (.r 4)), .set 11 (.mul (.s 1) (.r 4)), .set 10 (.sub (.r 10) (.mul (.s 1) (.r 5))), .st (.r 10),
    .set 11 (.add (.r 11) (.mul (.s 0) (.r 5))), .st (.r 11)] }

/-- `vcaxpy3`, include/scalarsite_generic/generic_blas_vcaxpy3.h:14-135 -/
def vcaxpy3 : Kern := {
  params := [.out, .s 0, .x, .y]
  nreg := 18
  mul := 4
  sub := 1
  pre := [
  .ld 0 .x, .ld 1 .x, .ld 2 .y, .ld 3 .y, .ld 4 .x, .ld 5 .x, .ld 6 .y, .ld 7 .y, .ld 8 .x, .ld 9 .x, .ld 10 .y]
  body := [
  .ld 11 .y, .set 12 (.add (.mul (.s 0) (.r 0)) (.r 2)), .set 13 (.add (.mul (.s 1) (.r 0)) (.r 3)), .ld 0 .x, .ld 2 .y,
    .set 12 (.sub (.r 12) (.mul (.s 1) (.r 1))), .st (.r 12), .set 13 (.add (.r 13) (.mul (.s 0) (.r 1))), .st (.r 13), .ld 1 .x,
    .set 14 (.add (.mul (.s 0) (.r 4)) (.r 6)), .ld 3 .y, .set 15 (.add (.mul (.s 1) (.r 4)) (.r 7)), .ld 4 .x, .ld 6 .y,
    .set 14 (.sub (.r 14) (.mul (.s 1) (.r 5))), .st (.r 14), .set 15 (.add (.r 15) (.mul (.s 0) (.r 5))), .st (.r 15), .ld 5 .x,
    .set 16 (.add (.mul (.s 0) (.r 8)) (.r 10)), .ld 7 .y, .set 17 (.add (.mul (.s 1) (.r 8)) (.r 11)), .ld 8 .x, .ld 10 .y,
    .set 16 (.sub (.r 16) (.mul (.s 1) (.r 9))), .st (.r 16), .set 17 (.add (.r 17) (.mul (.s 0) (.r 9))), .st (.r 17), .ld 9 .x]
  post := [
  .ld 11 .y, .set 12 (.add (.mul (.s 0) (.r 0)) (.r 2)), .set 13 (.add (.mul (.s 1) (.r 0)) (.r 3)),
    .set 12 (.sub (.r 12) (.mul (.s 1) (.r 1))), .st (.r 12), .set 13 (.add (.r 13) (.mul (.s 0) (.r 1))), .st (.r 13),
    .set 14 (.add (.mul (.s 0) (.r 4)) (.r 6)), .set 15 (.add (.mul (.s 1) (.r 4)) (.r 7)), .set 14 (.sub (.r 14) (.mul (.s 1) (.r 5))),
    .st (.r 14), .set 15 (.add (.r 15) (.mul (.s 0) (.r 5))), .st (.r 15), .set 16 (.add (.mul (.s 0) (.r 8)) (.r 10)),
    .set 17 (.add (.mul (.s 1) (.r 8)) (.r 11)), .set 16 (.sub (.r 16) (.mul (.s 1) (.r 9))), .st (.r 16),
    .set 17 (.add (.r 17) (.mul (.s 0) (.r 9))), .st (.r 17)] }

/-- `vcaxmy3`, include/scalarsite_generic/generic_blas_vcaxmy3.h:14-134 -/
def vcaxmy3 : Kern := {
  params := [.out, .s 0, .x, .y]
  nreg := 18
  mul := 4
  sub := 1
  pre := [
  .ld 0 .x, .ld 1 .x, .ld 2 .y, .ld 3 .y, .ld 4 .x, .ld 5 .x, .ld 6 .y, .ld 7 .y, .ld 8 .x, .ld 9 .x, .ld 10 .y]
  body := [
  .ld 11 .y, .set 12 (.sub (.mul (.s 0) (.r 0)) (.r 2)), .set 13 (.sub (.mul (.s 1) (.r 0)) (.r 3)), .ld 0 .x, .ld 2 .y,
    .set 12 (.sub (.r 12) (.mul (.s 1) (.r 1))), .st (.r 12), .set 13 (.add (.r 13) (.mul (.s 0) (.r 1))), .st (.r 13), .ld 1 .x,
    .set 14 (.sub (.mul (.s 0) (.r 4)) (.r 6)), .ld 3 .y, .set 15 (.sub (.mul (.s 1) (.r 4)) (.r 7)), .ld 4 .x, .ld 6 .y,
    .set 14 (.sub (.r 14) (.mul (.s 1) (.r 5))), .st (.r 14), .set 15 (.add (.r 15) (.mul (.s 0) (.r 5))), .st (.r 15), .ld 5 .x,
    .set 16 (.sub (.mul (.s 0) (.r 8)) (.r 10)), .ld 7 .y, .set 17 (.sub (.mul (.s 1) (.r 8)) (.r 11)), .ld 8 .x, .ld 10 .y,
    .set 16 (.sub (.r 16) (.mul (.s 1) (.r 9))), .st (.r 16), .set 17 (.add (.r 17) (.mul (.s 0) (.r 9))), .st (.r 17), .ld 9 .x]
  post := [
  .ld 11 .y, .set 12 (.sub (.mul (.s 0) (.r 0)) (.r 2)), .set 13 (.sub (.mul (.s 1) (.r 0)) (.r 3)),
    .set 12 (.sub (.r 12) (.mul (.s 1) (.r 1))), .st (.r 12), .set 13 (.add (.r 13) (.mul (.s 0) (.r 1))), .st (.r 13),
    .set 14 (.sub (.mul (.s 0) (.r 4)) (.r 6)), .set 15 (.sub (.mul (.s 1) (.r 4)) (.r 7)), .set 14 (.sub (.r 14) (.mul (.s 1) (.r 5))),
    .st (.r 14), .set 15 (.add (.r 15) (.mul (.s 0) (.r 5))), .st (.r 15), .set 16 (.sub (.mul (.s 0) (.r 8)) (.r 10)),
    .set 17 (.sub (.mul (.s 1) (.r 8)) (.r 11)), .set 16 (.sub (.r 16) (.mul (.s 1) (.r 9))), .st (.r 16),
    .set 17 (.add (.r 17) (.mul (.s 0) (.r 9))), .st (.r 17)] }

/-- `vcaxpby3`, include/scalarsite_generic/generic_blas_vcaxpby3.h:6-157 -/
def vcaxpby3 : Kern := {
  params := [.out, .s 0, .x, .s 2, .y]
  nreg := 18
  mul := 4
  sub := 1
  pre := [
  .ld 0 .x, .ld 1 .x, .ld 2 .y, .ld 3 .y, .ld 4 .x, .ld 5 .x, .ld 6 .y, .ld 7 .y, .ld 8 .x, .ld 9 .x, .ld 10 .y, .ld 11 .y]
  body := [
  .set 12 (.mul (.s 0) (.r 0)), .set 13 (.mul (.s 1) (.r 0)), .ld 0 .x, .set 12 (.add (.r 12) (.mul (.s 2) (.r 2))),
    .set 13 (.add (.r 13) (.mul (.s 3) (.r 2))), .ld 2 .y, .set 12 (.sub (.r 12) (.mul (.s 1) (.r 1))),
    .set 13 (.add (.r 13) (.mul (.s 0) (.r 1))), .ld 1 .x, .set 12 (.sub (.r 12) (.mul (.s 3) (.r 3))),
    .set 13 (.add (.r 13) (.mul (.s 2) (.r 3))), .ld 3 .y, .st (.r 12), .st (.r 13), .set 14 (.mul (.s 0) (.r 4)),
    .set 15 (.mul (.s 1) (.r 4)), .ld 4 .x, .set 14 (.add (.r 14) (.mul (.s 2) (.r 6))), .set 15 (.add (.r 15) (.mul (.s 3) (.r 6))),
    .ld 6 .y, .set 14 (.sub (.r 14) (.mul (.s 1) (.r 5))), .set 15 (.add (.r 15) (.mul (.s 0) (.r 5))), .ld 5 .x,
    .set 14 (.sub (.r 14) (.mul (.s 3) (.r 7))), .set 15 (.add (.r 15) (.mul (.s 2) (.r 7))), .ld 7 .y, .st (.r 14), .st (.r 15),
    .set 16 (.mul (.s 0) (.r 8)), .set 17 (.mul (.s 1) (.r 8)), .ld 8 .x, .set 16 (.add (.r 16) (.mul (.s 2) (.r 10))),
    .set 17 (.add (.r 17) (.mul (.s 3) (.r 10))), .ld 10 .y, .set 16 (.sub (.r 16) (.mul (.s 1) (.r 9))),
    .set 17 (.add (.r 17) (.mul (.s 0) (.r 9))), .ld 9 .x, .set 16 (.sub (.r 16) (.mul (.s 3) (.r 11))),
    .set 17 (.add (.r 17) (.mul (.s 2) (.r 11))), .ld 11 .y, .st (.r 16), .st (.r 17)]
  post := [
  .set 12 (.mul (.s 0) (.r 0)), .set 13 (.mul (.s 1) (.r 0)), .set 12 (.add (.r 12) (.mul (.s 2) (.r 2))),
    .set 13 (.add (.r 13) (.mul (.s 3) (.r 2))), .set 12 (.sub (.r 12) (.mul (.s 1) (.r 1))), .set 13 (.add (.r 13) (.mul (.s 0) (.r 1))),
    .set 12 (.sub (.r 12) (.mul (.s 3) (.r 3))), .st (.r 12), .set 13 (.add (.r 13) (.mul (.s 2) (.r 3))), .st (.r 13),
    .set 14 (.mul (.s 0) (.r 4)), .set 15 (.mul (.s 1) (.r 4)), .set 14 (.add (.r 14) (.mul (.s 2) (.r 6))),
    .set 15 (.add (.r 15) (.mul (.s 3) (.r 6))), .set 14 (.sub (.r 14) (.mul (.s 1) (.r 5))), .set 15 (.add (.r 15) (.mul (.s 0) (.r 5))),
    .set 14 (.sub (.r 14) (.mul (.s 3) (.r 7))), .st (.r 14), .set 15 (.add (.r 15) (.mul (.s 2) (.r 7))), .st (.r 15),
    .set 16 (.mul (.s 0) (.r 8)), .set 17 (.mul (.s 1) (.r 8)), .set 16 (.add (.r 16) (.mul (.s 2) (.r 10))),
    .set 17 (.add (.r 17) (.mul (.s 3) (.r 10))), .set 16 (.sub (.r 16) (.mul (.s 1) (.r 9))), .set 17 (.add (.r 17) (.mul (.s 0) (.r 9))),
    .set 16 (.sub (.r 16) (.mul (.s 3) (.r 11))), .st (.r 16), .set 17 (.add (.r 17) (.mul (.s 2) (.r 11))), .st (.r 17)] }

/-- `vcaxmby3`, include/scalarsite_generic/generic_blas_vcaxmby3.h:14-166 -/
def vcaxmby3 : Kern := {
  params := [.out, .s 0, .x, .s 2, .y]
  nreg := 18
  mul := 4
  sub := 1
  pre := [
  .ld 0 .x, .ld 1 .x, .ld 2 .y, .ld 3 .y, .ld 4 .x, .ld 5 .x, .ld 6 .y, .ld 7 .y, .ld 8 .x, .ld 9 .x, .ld 10 .y, .ld 11 .y]
  body := [
  .set 12 (.mul (.s 0) (.r 0)), .set 13 (.mul (.s 1) (.r 0)), .ld 0 .x, .set 12 (.sub (.r 12) (.mul (.s 2) (.r 2))),
    .set 13 (.sub (.r 13) (.mul (.s 3) (.r 2))), .ld 2 .y, .set 12 (.sub (.r 12) (.mul (.s 1) (.r 1))),
    .set 13 (.add (.r 13) (.mul (.s 0) (.r 1))), .ld 1 .x, .set 12 (.add (.r 12) (.mul (.s 3) (.r 3))),
    .set 13 (.sub (.r 13) (.mul (.s 2) (.r 3))), .ld 3 .y, .st (.r 12), .st (.r 13), .set 14 (.mul (.s 0) (.r 4)),
    .set 15 (.mul (.s 1) (.r 4)), .ld 4 .x, .set 14 (.sub (.r 14) (.mul (.s 2) (.r 6))), .set 15 (.sub (.r 15) (.mul (.s 3) (.r 6))),
    .ld 6 .y, .set 14 (.sub (.r 14) (.mul (.s 1) (.r 5))), .set 15 (.add (.r 15) (.mul (.s 0) (.r 5))), .ld 5 .x,
    .set 14 (.add (.r 14) (.mul (.s 3) (.r 7))), .set 15 (.sub (.r 15) (.mul (.s 2) (.r 7))), .ld 7 .y, .st (.r 14), .st (.r 15),
    .set 16 (.mul (.s 0) (.r 8)), .set 17 (.mul (.s 1) (.r 8)), .ld 8 .x, .set 16 (.sub (.r 16) (.mul (.s 2) (.r 10))),
    .set 17 (.sub (.r 17) (.mul (.s 3) (.r 10))), .ld 10 .y, .set 16 (.sub (.r 16) (.mul (.s 1) (.r 9))),
    .set 17 (.add (.r 17) (.mul (.s 0) (.r 9))), .ld 9 .x, .set 16 (.add (.r 16) (.mul (.s 3) (.r 11))),
    .set 17 (.sub (.r 17) (.mul (.s 2) (.r 11))), .ld 11 .y, .st (.r 16), .st (.r 17)]
  post := [
  .set 12 (.mul (.s 0) (.r 0)), .set 13 (.mul (.s 1) (.r 0)), .set 12 (.sub (.r 12) (.mul (.s 2) (.r 2))),
    .set 13 (.sub (.r 13) (.mul (.s 3) (.r 2))), .set 12 (.sub (.r 12) (.mul (.s 1) (.r 1))), .set 13 (.add (.r 13) (.mul (.s 0) (.r 1))),
    .set 12 (.add (.r 12) (.mul (.s 3) (.r 3))), .st (.r 12), .set 13 (.sub (.r 13) (.mul (.s 2) (.r 3))), .st (.r 13),
    .set 14 (.mul (.s 0) (.r 4)), .set 15 (.mul (.s 1) (.r 4)), .set 14 (.sub (.r 14) (.mul (.s 2) (.r 6))),
    .set 15 (.sub (.r 15) (.mul (.s 3) (.r 6))), .set 14 (.sub (.r 14) (.mul (.s 1) (.r 5))), .set 15 (.add (.r 15) (.mul (.s 0) (.r 5))),
    .set 14 (.add (.r 14) (.mul (.s 3) (.r 7))), .st (.r 14), .set 15 (.sub (.r 15) (.mul (.s 2) (.r 7))), .st (.r 15),
    .set 16 (.mul (.s 0) (.r 8)), .set 17 (.mul (.s 1) (.r 8)), .set 16 (.sub (.r 16) (.mul (.s 2) (.r 10))),
    .set 17 (.sub (.r 17) (.mul (.s 3) (.r 10))), .set 16 (.sub (.r 16) (.mul (.s 1) (.r 9))), .set 17 (.add (.r 17) (.mul (.s 0) (.r 9))),
    .set 16 (.add (.r 16) (.mul (.s 3) (.r 11))), .st (.r 16), .set 17 (.sub (.r 17) (.mul (.s 2) (.r 11))), .st (.r 17)] }

/-- `scal_g5`, include/scalarsite_generic/generic_blas_g5.h:8-137 -/
def scal_g5 : Kern := {
  params := [.out, .s 0, .x]
  nreg := 12
  mul := 1
  sub := 0
  pre := []
  body := [
  .ld 0 .x, .set 1 (.mul (.s 0) (.r 0)), .st (.r 1), .ld 2 .x, .set 3 (.mul (.s 0) (.r 2)), .st (.r 3), .ld 4 .x,
    .set 5 (.mul (.s 0) (.r 4)), .st (.r 5), .ld 6 .x, .set 7 (.mul (.s 0) (.r 6)), .st (.r 7), .ld 8 .x, .set 9 (.mul (.s 0) (.r 8)),
    .st (.r 9), .ld 10 .x, .set 11 (.mul (.s 0) (.r 10)), .st (.r 11), .ld 0 .x, .set 1 (.mul (.s 0) (.r 0)), .st (.r 1), .ld 2 .x,
    .set 3 (.mul (.s 0) (.r 2)), .st (.r 3), .ld 4 .x, .set 5 (.mul (.s 0) (.r 4)), .st (.r 5), .ld 6 .x, .set 7 (.mul (.s 0) (.r 6)),
    .st (.r 7), .ld 8 .x, .set 9 (.mul (.s 0) (.r 8)), .st (.r 9), .ld 10 .x, .set 11 (.mul (.s 0) (.r 10)), .st (.r 11), .ld 0 .x,
    .set 1 (.mul (.s 0) (.r 0)), .st (.neg (.r 1)), .ld 2 .x, .set 3 (.mul (.s 0) (.r 2)), .st (.neg (.r 3)), .ld 4 .x,
    .set 5 (.mul (.s 0) (.r 4)), .st (.neg (.r 5)), .ld 6 .x, .set 7 (.mul (.s 0) (.r 6)), .st (.neg (.r 7)), .ld 8 .x,
    .set 9 (.mul (.s 0) (.r 8)), .st (.neg (.r 9)), .ld 10 .x, .set 11 (.mul (.s 0) (.r 10)), .st (.neg (.r 11)), .ld 0 .x,
    .set 1 (.mul (.s 0) (.r 0)), .st (.neg (.r 1)), .ld 2 .x, .set 3 (.mul (.s 0) (.r 2)), .st (.neg (.r 3)), .ld 4 .x,
    .set 5 (.mul (.s 0) (.r 4)), .st (.neg (.r 5)), .ld 6 .x, .set 7 (.mul (.s 0) (.r 6)), .st (.neg (.r 7)), .ld 8 .x,
    .set 9 (.mul (.s 0) (.r 8)), .st (.neg (.r 9)), .ld 10 .x, .set 11 (.mul (.s 0) (.r 10)), .st (.neg (.r 11))]
  post := [] }

/-- `axpbyz_g5`, include/scalarsite_generic/generic_blas_g5.h:141-331 -/
def axpbyz_g5 : Kern := {
  params := [.out, .s 0, .x, .s 2, .y]
  nreg := 18
  mul := 1
  sub := 0
  pre := []
  body := [
  .ld 0 .x, .ld 1 .y, .set 2 (.mul (.s 0) (.r 0)), .set 2 (.add (.r 2) (.mul (.s 2) (.r 1))), .st (.r 2), .ld 3 .x, .ld 4 .y,
    .set 5 (.mul (.s 0) (.r 3)), .set 5 (.add (.r 5) (.mul (.s 2) (.r 4))), .st (.r 5), .ld 6 .x, .ld 7 .y, .set 8 (.mul (.s 0) (.r 6)),
    .set 8 (.add (.r 8) (.mul (.s 2) (.r 7))), .st (.r 8), .ld 9 .x, .ld 10 .y, .set 11 (.mul (.s 0) (.r 9)),
    .set 11 (.add (.r 11) (.mul (.s 2) (.r 10))), .st (.r 11), .ld 12 .x, .ld 13 .y, .set 14 (.mul (.s 0) (.r 12)),
    .set 14 (.add (.r 14) (.mul (.s 2) (.r 13))), .st (.r 14), .ld 15 .x, .ld 16 .y, .set 17 (.mul (.s 0) (.r 15)),
    .set 17 (.add (.r 17) (.mul (.s 2) (.r 16))), .st (.r 17), .ld 0 .x, .ld 1 .y, .set 2 (.mul (.s 0) (.r 0)),
    .set 2 (.add (.r 2) (.mul (.s 2) (.r 1))), .st (.r 2), .ld 3 .x, .ld 4 .y, .set 5 (.mul (.s 0) (.r 3)),
    .set 5 (.add (.r 5) (.mul (.s 2) (.r 4))), .st (.r 5), .ld 6 .x, .ld 7 .y, .set 8 (.mul (.s 0) (.r 6)),
    .set 8 (.add (.r 8) (.mul (.s 2) (.r 7))), .st (.r 8), .ld 9 .x, .ld 10 .y, .set 11 (.mul (.s 0) (.r 9)),
    .set 11 (.add (.r 11) (.mul (.s 2) (.r 10))), .st (.r 11), .ld 12 .x, .ld 13 .y, .set 14 (.mul (.s 0) (.r 12)),
    .set 14 (.add (.r 14) (.mul (.s 2) (.r 13))), .st (.r 14), .ld 15 .x, .ld 16 .y, .set 17 (.mul (.s 0) (.r 15)),
    .set 17 (.add (.r 17) (.mul (.s 2) (.r 16))), .st (.r 17), .ld 0 .x, .ld 1 .y, .set 2 (.mul (.s 0) (.r 0)),
    .set 2 (.sub (.r 2) (.mul (.s 2) (.r 1))), .st (.r 2), .ld 3 .x, .ld 4 .y, .set 5 (.mul (.s 0) (.r 3)),
    .set 5 (.sub (.r 5) (.mul (.s 2) (.r 4))), .st (.r 5), .ld 6 .x, .ld 7 .y, .set 8 (.mul (.s 0) (.r 6)),
    .set 8 (.sub (.r 8) (.mul (.s 2) (.r 7))), .st (.r 8), .ld 9 .x, .ld 10 .y, .set 11 (.mul (.s 0) (.r 9)),
    .set 11 (.sub (.r 11) (.mul (.s 2) (.r 10))), .st (.r 11), .ld 12 .x, .ld 13 .y, .set 14 (.mul (.s 0) (.r 12)),
    .set 14 (.sub (.r 14) (.mul (.s 2) (.r 13))), .st (.r 14), .ld 15 .x, .ld 16 .y, .set 17 (.mul (.s 0) (.r 15)),
    .set 17 (.sub (.r 17) (.mul (.s 2) (.r 16))), .st (.r 17), .ld 0 .x, .ld 1 .y, .set 2 (.mul (.s 0) (.r 0)),
    .set 2 (.sub (.r 2) (.mul (.s 2) (.r 1))), .st (.r 2), .ld 3 .x, .ld 4 .y, .set 5 (.mul (.s 0) (.r 3)),
    .set 5 (.sub (.r 5) (.mul (.s 2) (.r 4))), .st (.r 5), .ld 6 .x, .ld 7 .y, .set 8 (.mul (.s 0) (.r 6)),
    .set 8 (.sub (.r 8) (.mul (.s 2) (.r 7))), .st (.r 8), .ld 9 .x, .ld 10 .y, .set 11 (.mul (.s 0) (.r 9)),
    .set 11 (.sub (.r 11) (.mul (.s 2) (.r 10))), .st (.r 11), .ld 12 .x, .ld 13 .y, .set 14 (.mul (.s 0) (.r 12)),
    .set 14 (.sub (.r 14) (.mul (.s 2) (.r 13))), .st (.r 14), .ld 15 .x, .ld 16 .y, .set 17 (.mul (.s 0) (.r 15)),
    .set 17 (.sub (.r 17) (.mul (.s 2) (.r 16))), .st (.r 17)]
  post := [] }

/-- `xmayz_g5`, include/scalarsite_generic/generic_blas_g5.h:335-501 -/
def xmayz_g5 : Kern := {
  params := [.out, .s 0, .x, .y]
  nreg := 18
  mul := 1
  sub := 0
  pre := []
  body := [
  .ld 0 .x, .ld 1 .y, .set 2 (.sub (.r 0) (.mul (.s 0) (.r 1))), .st (.r 2), .ld 3 .x, .ld 4 .y, .set 5 (.sub (.r 3) (.mul (.s 0) (.r 4))),
    .st (.r 5), .ld 6 .x, .ld 7 .y, .set 8 (.sub (.r 6) (.mul (.s 0) (.r 7))), .st (.r 8), .ld 9 .x, .ld 10 .y,
    .set 11 (.sub (.r 9) (.mul (.s 0) (.r 10))), .st (.r 11), .ld 12 .x, .ld 13 .y, .set 14 (.sub (.r 12) (.mul (.s 0) (.r 13))),
    .st (.r 14), .ld 15 .x, .ld 16 .y, .set 17 (.sub (.r 15) (.mul (.s 0) (.r 16))), .st (.r 17), .ld 0 .x, .ld 1 .y,
    .set 2 (.sub (.r 0) (.mul (.s 0) (.r 1))), .st (.r 2), .ld 3 .x, .ld 4 .y, .set 5 (.sub (.r 3) (.mul (.s 0) (.r 4))), .st (.r 5),
    .ld 6 .x, .ld 7 .y, .set 8 (.sub (.r 6) (.mul (.s 0) (.r 7))), .st (.r 8), .ld 9 .x, .ld 10 .y,
    .set 11 (.sub (.r 9) (.mul (.s 0) (.r 10))), .st (.r 11), .ld 12 .x, .ld 13 .y, .set 14 (.sub (.r 12) (.mul (.s 0) (.r 13))),
    .st (.r 14), .ld 15 .x, .ld 16 .y, .set 17 (.sub (.r 15) (.mul (.s 0) (.r 16))), .st (.r 17), .ld 0 .x, .ld 1 .y,
    .set 2 (.add (.r 0) (.mul (.s 0) (.r 1))), .st (.r 2), .ld 3 .x, .ld 4 .y, .set 5 (.add (.r 3) (.mul (.s 0) (.r 4))), .st (.r 5),
    .ld 6 .x, .ld 7 .y, .set 8 (.add (.r 6) (.mul (.s 0) (.r 7))), .st (.r 8), .ld 9 .x, .ld 10 .y,
    .set 11 (.add (.r 9) (.mul (.s 0) (.r 10))), .st (.r 11), .ld 12 .x, .ld 13 .y, .set 14 (.add (.r 12) (.mul (.s 0) (.r 13))),
    .st (.r 14), .ld 15 .x, .ld 16 .y, .set 17 (.add (.r 15) (.mul (.s 0) (.r 16))), .st (.r 17), .ld 0 .x, .ld 1 .y,
    .set 2 (.add (.r 0) (.mul (.s 0) (.r 1))), .st (.r 2), .ld 3 .x, .ld 4 .y, .set 5 (.add (.r 3) (.mul (.s 0) (.r 4))), .st (.r 5),
    .ld 6 .x, .ld 7 .y, .set 8 (.add (.r 6) (.mul (.s 0) (.r 7))), .st (.r 8), .ld 9 .x, .ld 10 .y,
    .set 11 (.add (.r 9) (.mul (.s 0) (.r 10))), .st (.r 11), .ld 12 .x, .ld 13 .y, .set 14 (.add (.r 12) (.mul (.s 0) (.r 13))),
    .st (.r 14), .ld 15 .x, .ld 16 .y, .set 17 (.add (.r 15) (.mul (.s 0) (.r 16))), .st (.r 17)]
  post := [] }

/-- `g5_axmbyz`, include/scalarsite_generic/generic_blas_g5.h:505-700 -/
def g5_axmbyz : Kern := {
  params := [.out, .s 0, .x, .s 2, .y]
  nreg := 18
  mul := 1
  sub := 0
  pre := []
  body := [
  .ld 0 .x, .ld 1 .y, .set 2 (.mul (.s 0) (.r 0)), .set 2 (.sub (.r 2) (.mul (.s 2) (.r 1))), .st (.r 2), .ld 3 .x, .ld 4 .y,
    .set 5 (.mul (.s 0) (.r 3)), .set 5 (.sub (.r 5) (.mul (.s 2) (.r 4))), .st (.r 5), .ld 6 .x, .ld 7 .y, .set 8 (.mul (.s 0) (.r 6)),
    .set 8 (.sub (.r 8) (.mul (.s 2) (.r 7))), .st (.r 8), .ld 9 .x, .ld 10 .y, .set 11 (.mul (.s 0) (.r 9)),
    .set 11 (.sub (.r 11) (.mul (.s 2) (.r 10))), .st (.r 11), .ld 12 .x, .ld 13 .y, .set 14 (.mul (.s 0) (.r 12)),
    .set 14 (.sub (.r 14) (.mul (.s 2) (.r 13))), .st (.r 14), .ld 15 .x, .ld 16 .y, .set 17 (.mul (.s 0) (.r 15)),
    .set 17 (.sub (.r 17) (.mul (.s 2) (.r 16))), .st (.r 17), .ld 0 .x, .ld 1 .y, .set 2 (.mul (.s 0) (.r 0)),
    .set 2 (.sub (.r 2) (.mul (.s 2) (.r 1))), .st (.r 2), .ld 3 .x, .ld 4 .y, .set 5 (.mul (.s 0) (.r 3)),
    .set 5 (.sub (.r 5) (.mul (.s 2) (.r 4))), .st (.r 5), .ld 6 .x, .ld 7 .y, .set 8 (.mul (.s 0) (.r 6)),
    .set 8 (.sub (.r 8) (.mul (.s 2) (.r 7))), .st (.r 8), .ld 9 .x, .ld 10 .y, .set 11 (.mul (.s 0) (.r 9)),
    .set 11 (.sub (.r 11) (.mul (.s 2) (.r 10))), .st (.r 11), .ld 12 .x, .ld 13 .y, .set 14 (.mul (.s 0) (.r 12)),
    .set 14 (.sub (.r 14) (.mul (.s 2) (.r 13))), .st (.r 14), .ld 15 .x, .ld 16 .y, .set 17 (.mul (.s 0) (.r 15)),
    .set 17 (.sub (.r 17) (.mul (.s 2) (.r 16))), .st (.r 17), .ld 0 .x, .ld 1 .y, .set 2 (.mul (.s 2) (.r 1)),
    .set 2 (.sub (.r 2) (.mul (.s 0) (.r 0))), .st (.r 2), .ld 3 .x, .ld 4 .y, .set 5 (.mul (.s 2) (.r 4)),
    .set 5 (.sub (.r 5) (.mul (.s 0) (.r 3))), .st (.r 5), .ld 6 .x, .ld 7 .y, .set 8 (.mul (.s 2) (.r 7)),
    .set 8 (.sub (.r 8) (.mul (.s 0) (.r 6))), .st (.r 8), .ld 9 .x, .ld 10 .y, .set 11 (.mul (.s 2) (.r 10)),
    .set 11 (.sub (.r 11) (.mul (.s 0) (.r 9))), .st (.r 11), .ld 12 .x, .ld 13 .y, .set 14 (.mul (.s 2) (.r 13)),
    .set 14 (.sub (.r 14) (.mul (.s 0) (.r 12))), .st (.r 14), .ld 15 .x, .ld 16 .y, .set 17 (.mul (.s 2) (.r 16)),
    .set 17 (.sub (.r 17) (.mul (.s 0) (.r 15))), .st (.r 17), .ld 0 .x, .ld 1 .y, .set 2 (.mul (.s 2) (.r 1)),
    .set 2 (.sub (.r 2) (.mul (.s 0) (.r 0))), .st (.r 2), .ld 3 .x, .ld 4 .y, .set 5 (.mul (.s 2) (.r 4)),
    .set 5 (.sub (.r 5) (.mul (.s 0) (.r 3))), .st (.r 5), .ld 6 .x, .ld 7 .y, .set 8 (.mul (.s 2) (.r 7)),
    .set 8 (.sub (.r 8) (.mul (.s 0) (.r 6))), .st (.r 8), .ld 9 .x, .ld 10 .y, .set 11 (.mul (.s 2) (.r 10)),
    .set 11 (.sub (.r 11) (.mul (.s 0) (.r 9))), .st (.r 11), .ld 12 .x, .ld 13 .y, .set 14 (.mul (.s 2) (.r 13)),
    .set 14 (.sub (.r 14) (.mul (.s 0) (.r 12))), .st (.r 14), .ld 15 .x, .ld 16 .y, .set 17 (.mul (.s 2) (.r 16)),
    .set 17 (.sub (.r 17) (.mul (.s 0) (.r 15))), .st (.r 17)]
  post := [] }

/-- `axpbyz_ig5`, include/scalarsite_generic/generic_blas_g5.h:704-898 -/
def axpbyz_ig5 : Kern := {
  params := [.out, .s 0, .x, .s 2, .y]
  nreg := 18
  mul := 1
  sub := 0
  pre := []
  body := [
  .ld 0 .x, .ld 1 .x, .ld 2 .y, .ld 3 .y, .set 4 (.mul (.s 0) (.r 0)), .set 4 (.sub (.r 4) (.mul (.s 2) (.r 3))), .st (.r 4),
    .set 5 (.mul (.s 0) (.r 1)), .set 5 (.add (.r 5) (.mul (.s 2) (.r 2))), .st (.r 5), .ld 6 .x, .ld 7 .x, .ld 8 .y, .ld 9 .y,
    .set 10 (.mul (.s 0) (.r 6)), .set 10 (.sub (.r 10) (.mul (.s 2) (.r 9))), .st (.r 10), .set 11 (.mul (.s 0) (.r 7)),
    .set 11 (.add (.r 11) (.mul (.s 2) (.r 8))), .st (.r 11), .ld 12 .x, .ld 13 .x, .ld 14 .y, .ld 15 .y, .set 16 (.mul (.s 0) (.r 12)),
    .set 16 (.sub (.r 16) (.mul (.s 2) (.r 15))), .st (.r 16), .set 17 (.mul (.s 0) (.r 13)), .set 17 (.add (.r 17) (.mul (.s 2) (.r 14))),
    .st (.r 17), .ld 0 .x, .ld 1 .x, .ld 2 .y, .ld 3 .y, .set 4 (.mul (.s 0) (.r 0)), .set 4 (.sub (.r 4) (.mul (.s 2) (.r 3))),
    .st (.r 4), .set 5 (.mul (.s 0) (.r 1)), .set 5 (.add (.r 5) (.mul (.s 2) (.r 2))), .st (.r 5), .ld 6 .x, .ld 7 .x, .ld 8 .y, .ld 9 .y,
    .set 10 (.mul (.s 0) (.r 6)), .set 10 (.sub (.r 10) (.mul (.s 2) (.r 9))), .st (.r 10), .set 11 (.mul (.s 0) (.r 7)),
    .set 11 (.add (.r 11) (.mul (.s 2) (.r 8))), .st (.r 11), .ld 12 .x, .ld 13 .x, .ld 14 .y, .ld 15 .y, .set 16 (.mul (.s 0) (.r 12)),
    .set 16 (.sub (.r 16) (.mul (.s 2) (.r 15))), .st (.r 16), .set 17 (.mul (.s 0) (.r 13)), .set 17 (.add (.r 17) (.mul (.s 2) (.r 14))),
    .st (.r 17), .ld 0 .x, .ld 1 .x, .ld 2 .y, .ld 3 .y, .set 4 (.mul (.s 0) (.r 0)), .set 4 (.add (.r 4) (.mul (.s 2) (.r 3))),
    .st (.r 4), .set 5 (.mul (.s 0) (.r 1)), .set 5 (.sub (.r 5) (.mul (.s 2) (.r 2))), .st (.r 5), .ld 6 .x, .ld 7 .x, .ld 8 .y, .ld 9 .y,
    .set 10 (.mul (.s 0) (.r 6)), .set 10 (.add (.r 10) (.mul (.s 2) (.r 9))), .st (.r 10), .set 11 (.mul (.s 0) (.r 7)),
    .set 11 (.sub (.r 11) (.mul (.s 2) (.r 8))), .st (.r 11), .ld 12 .x, .ld 13 .x, .ld 14 .y, .ld 15 .y, .set 16 (.mul (.s 0) (.r 12)),
    .set 16 (.add (.r 16) (.mul (.s 2) (.r 15))), .st (.r 16), .set 17 (.mul (.s 0) (.r 13)), .set 17 (.sub (.r 17) (.mul (.s 2) (.r 14))),
    .st (.r 17), .ld 0 .x, .ld 1 .x, .ld 2 .y, .ld 3 .y, .set 4 (.mul (.s 0) (.r 0)), .set 4 (.add (.r 4) (.mul (.s 2) (.r 3))),
    .st (.r 4), .set 5 (.mul (.s 0) (.r 1)), .set 5 (.sub (.r 5) (.mul (.s 2) (.r 2))), .st (.r 5), .ld 6 .x, .ld 7 .x, .ld 8 .y, .ld 9 .y,
    .set 10 (.mul (.s 0) (.r 6)), .set 10 (.add (.r 10) (.mul (.s 2) (.r 9))), .st (.r 10), .set 11 (.mul (.s 0) (.r 7)),
    .set 11 (.sub (.r 11) (.mul (.s 2) (.r 8))), .st (.r 11), .ld 12 .x, .ld 13 .x, .ld 14 .y, .ld 15 .y, .set 16 (.mul (.s 0) (.r 12)),
    .set 16 (.add (.r 16) (.mul (.s 2) (.r 15))), .st (.r 16), .set 17 (.mul (.s 0) (.r 13)), .set 17 (.sub (.r 17) (.mul (.s 2) (.r 14))),
    .st (.r 17)]
  post := [] }

/-- `axmbyz_ig5`, include/scalarsite_generic/generic_blas_g5.h:903-1095 -/
def axmbyz_ig5 : Kern := {
  params := [.out, .s 0, .x, .s 2, .y]
  nreg := 18
  mul := 1
  sub := 0
  pre := []
  body := [
  .ld 0 .x, .ld 1 .x, .ld 2 .y, .ld 3 .y, .set 4 (.mul (.s 0) (.r 0)), .set 4 (.add (.r 4) (.mul (.s 2) (.r 3))), .st (.r 4),
    .set 5 (.mul (.s 0) (.r 1)), .set 5 (.sub (.r 5) (.mul (.s 2) (.r 2))), .st (.r 5), .ld 6 .x, .ld 7 .x, .ld 8 .y, .ld 9 .y,
    .set 10 (.mul (.s 0) (.r 6)), .set 10 (.add (.r 10) (.mul (.s 2) (.r 9))), .st (.r 10), .set 11 (.mul (.s 0) (.r 7)),
    .set 11 (.sub (.r 11) (.mul (.s 2) (.r 8))), .st (.r 11), .ld 12 .x, .ld 13 .x, .ld 14 .y, .ld 15 .y, .set 16 (.mul (.s 0) (.r 12)),
    .set 16 (.add (.r 16) (.mul (.s 2) (.r 15))), .st (.r 16), .set 17 (.mul (.s 0) (.r 13)), .set 17 (.sub (.r 17) (.mul (.s 2) (.r 14))),
    .st (.r 17), .ld 0 .x, .ld 1 .x, .ld 2 .y, .ld 3 .y, .set 4 (.mul (.s 0) (.r 0)), .set 4 (.add (.r 4) (.mul (.s 2) (.r 3))),
    .st (.r 4), .set 5 (.mul (.s 0) (.r 1)), .set 5 (.sub (.r 5) (.mul (.s 2) (.r 2))), .st (.r 5), .ld 6 .x, .ld 7 .x, .ld 8 .y, .ld 9 .y,
    .set 10 (.mul (.s 0) (.r 6)), .set 10 (.add (.r 10) (.mul (.s 2) (.r 9))), .st (.r 10), .set 11 (.mul (.s 0) (.r 7)),
    .set 11 (.sub (.r 11) (.mul (.s 2) (.r 8))), .st (.r 11), .ld 12 .x, .ld 13 .x, .ld 14 .y, .ld 15 .y, .set 16 (.mul (.s 0) (.r 12)),
    .set 16 (.add (.r 16) (.mul (.s 2) (.r 15))), .st (.r 16), .set 17 (.mul (.s 0) (.r 13)), .set 17 (.sub (.r 17) (.mul (.s 2) (.r 14))),
    .st (.r 17), .ld 0 .x, .ld 1 .x, .ld 2 .y, .ld 3 .y, .set 4 (.mul (.s 0) (.r 0)), .set 4 (.sub (.r 4) (.mul (.s 2) (.r 3))),
    .st (.r 4), .set 5 (.mul (.s 0) (.r 1)), .set 5 (.add (.r 5) (.mul (.s 2) (.r 2))), .st (.r 5), .ld 6 .x, .ld 7 .x, .ld 8 .y, .ld 9 .y,
    .set 10 (.mul (.s 0) (.r 6)), .set 10 (.sub (.r 10) (.mul (.s 2) (.r 9))), .st (.r 10), .set 11 (.mul (.s 0) (.r 7)),
    .set 11 (.add (.r 11) (.mul (.s 2) (.r 8))), .st (.r 11), .ld 12 .x, .ld 13 .x, .ld 14 .y, .ld 15 .y, .set 16 (.mul (.s 0) (.r 12)),
    .set 16 (.sub (.r 16) (.mul (.s 2) (.r 15))), .st (.r 16), .set 17 (.mul (.s 0) (.r 13)), .set 17 (.add (.r 17) (.mul (.s 2) (.r 14))),
    .st (.r 17), .ld 0 .x, .ld 1 .x, .ld 2 .y, .ld 3 .y, .set 4 (.mul (.s 0) (.r 0)), .set 4 (.sub (.r 4) (.mul (.s 2) (.r 3))),
    .st (.r 4), .set 5 (.mul (.s 0) (.r 1)), .set 5 (.add (.r 5) (.mul (.s 2) (.r 2))), .st (.r 5), .ld 6 .x, .ld 7 .x, .ld 8 .y, .ld 9 .y,
    .set 10 (.mul (.s 0) (.r 6)), .set 10 (.sub (.r 10) (.mul (.s 2) (.r 9))), .st (.r 10), .set 11 (.mul (.s 0) (.r 7)),
    .set 11 (.add (.r 11) (.mul (.s 2) (.r 8))), .st (.r 11), .ld 12 .x, .ld 13 .x, .ld 14 .y, .ld 15 .y, .set 16 (.mul (.s 0) (.r 12)),
    .set 16 (.sub (.r 16) (.mul (.s 2) (.r 15))), .st (.r 16), .set 17 (.mul (.s 0) (.r 13)), .set 17 (.add (.r 17) (.mul (.s 2) (.r 14))),
    .st (.r 17)]
  post := [] }

/-- `xpayz_ig5`, include/scalarsite_generic/generic_blas_g5.h:1101-1267 -/
def xpayz_ig5 : Kern := {
  params := [.out, .s 0, .x, .y]
  nreg := 18
  mul := 1
  sub := 0
  pre := []
  body := [
  .ld 0 .x, .ld 1 .x, .ld 2 .y, .ld 3 .y, .set 4 (.sub (.r 0) (.mul (.s 0) (.r 3))), .st (.r 4), .set 5 (.add (.r 1) (.mul (.s 0) (.r 2))),
    .st (.r 5), .ld 6 .x, .ld 7 .x, .ld 8 .y, .ld 9 .y, .set 10 (.sub (.r 6) (.mul (.s 0) (.r 9))), .st (.r 10),
    .set 11 (.add (.r 7) (.mul (.s 0) (.r 8))), .st (.r 11), .ld 12 .x, .ld 13 .x, .ld 14 .y, .ld 15 .y,
    .set 16 (.sub (.r 12) (.mul (.s 0) (.r 15))), .st (.r 16), .set 17 (.add (.r 13) (.mul (.s 0) (.r 14))), .st (.r 17), .ld 0 .x,
    .ld 1 .x, .ld 2 .y, .ld 3 .y, .set 4 (.sub (.r 0) (.mul (.s 0) (.r 3))), .st (.r 4), .set 5 (.add (.r 1) (.mul (.s 0) (.r 2))),
    .st (.r 5), .ld 6 .x, .ld 7 .x, .ld 8 .y, .ld 9 .y, .set 10 (.sub (.r 6) (.mul (.s 0) (.r 9))), .st (.r 10),
    .set 11 (.add (.r 7) (.mul (.s 0) (.r 8))), .st (.r 11), .ld 12 .x, .ld 13 .x, .ld 14 .y, .ld 15 .y,
    .set 16 (.sub (.r 12) (.mul (.s 0) (.r 15))), .st (.r 16), .set 17 (.add (.r 13) (.mul (.s 0) (.r 14))), .st (.r 17), .ld 0 .x,
    .ld 1 .x, .ld 2 .y, .ld 3 .y, .set 4 (.add (.r 0) (.mul (.s 0) (.r 3))), .st (.r 4), .set 5 (.sub (.r 1) (.mul (.s 0) (.r 2))),
    .st (.r 5), .ld 6 .x, .ld 7 .x, .ld 8 .y, .ld 9 .y, .set 10 (.add (.r 6) (.mul (.s 0) (.r 9))), .st (.r 10),
    .set 11 (.sub (.r 7) (.mul (.s 0) (.r 8))), .st (.r 11), .ld 12 .x, .ld 13 .x, .ld 14 .y, .ld 15 .y,
    .set 16 (.add (.r 12) (.mul (.s 0) (.r 15))), .st (.r 16), .set 17 (.sub (.r 13) (.mul (.s 0) (.r 14))), .st (.r 17), .ld 0 .x,
    .ld 1 .x, .ld 2 .y, .ld 3 .y, .set 4 (.add (.r 0) (.mul (.s 0) (.r 3))), .st (.r 4), .set 5 (.sub (.r 1) (.mul (.s 0) (.r 2))),
    .st (.r 5), .ld 6 .x, .ld 7 .x, .ld 8 .y, .ld 9 .y, .set 10 (.add (.r 6) (.mul (.s 0) (.r 9))), .st (.r 10),
    .set 11 (.sub (.r 7) (.mul (.s 0) (.r 8))), .st (.r 11), .ld 12 .x, .ld 13 .x, .ld 14 .y, .ld 15 .y,
    .set 16 (.add (.r 12) (.mul (.s 0) (.r 15))), .st (.r 16), .set 17 (.sub (.r 13) (.mul (.s 0) (.r 14))), .st (.r 17)]
  post := [] }

/-- `xmayz_ig5`, include/scalarsite_generic/generic_blas_g5.h:1271-1437 -/
def xmayz_ig5 : Kern := {
  params := [.out, .s 0, .x, .y]
  nreg := 18
  mul := 1
  sub := 0
  pre := []
  body := [
  .ld 0 .x, .ld 1 .x, .ld 2 .y, .ld 3 .y, .set 4 (.add (.r 0) (.mul (.s 0) (.r 3))), .st (.r 4), .set 5 (.sub (.r 1) (.mul (.s 0) (.r 2))),
    .st (.r 5), .ld 6 .x, .ld 7 .x, .ld 8 .y, .ld 9 .y, .set 10 (.add (.r 6) (.mul (.s 0) (.r 9))), .st (.r 10),
    .set 11 (.sub (.r 7) (.mul (.s 0) (.r 8))), .st (.r 11), .ld 12 .x, .ld 13 .x, .ld 14 .y, .ld 15 .y,
    .set 16 (.add (.r 12) (.mul (.s 0) (.r 15))), .st (.r 16), .set 17 (.sub (.r 13) (.mul (.s 0) (.r 14))), .st (.r 17), .ld 0 .x,
    .ld 1 .x, .ld 2 .y, .ld 3 .y, .set 4 (.add (.r 0) (.mul (.s 0) (.r 3))), .st (.r 4), .set 5 (.sub (.r 1) (.mul (.s 0) (.r 2))),
    .st (.r 5), .ld 6 .x, .ld 7 .x, .ld 8 .y, .ld 9 .y, .set 10 (.add (.r 6) (.mul (.s 0) (.r 9))), .st (.r 10),
    .set 11 (.sub (.r 7) (.mul (.s 0) (.r 8))), .st (.r 11), .ld 12 .x, .ld 13 .x, .ld 14 .y, .ld 15 .y,
    .set 16 (.add (.r 12) (.mul (.s 0) (.r 15))), .st (.r 16), .set 17 (.sub (.r 13) (.mul (.s 0) (.r 14))), .st (.r 17), .ld 0 .x,
    .ld 1 .x, .ld 2 .y, .ld 3 .y, .set 4 (.sub (.r 0) (.mul (.s 0) (.r 3))), .st (.r 4), .set 5 (.add (.r 1) (.mul (.s 0) (.r 2))),
    .st (.r 5), .ld 6 .x, .ld 7 .x, .ld 8 .y, .ld 9 .y, .set 10 (.sub (.r 6) (.mul (.s 0) (.r 9))), .st (.r 10),
    .set 11 (.add (.r 7) (.mul (.s 0) (.r 8))), .st (.r 11), .ld 12 .x, .ld 13 .x, .ld 14 .y, .ld 15 .y,
    .set 16 (.sub (.r 12) (.mul (.s 0) (.r 15))), .st (.r 16), .set 17 (.add (.r 13) (.mul (.s 0) (.r 14))), .st (.r 17), .ld 0 .x,
    .ld 1 .x, .ld 2 .y, .ld 3 .y, .set 4 (.sub (.r 0) (.mul (.s 0) (.r 3))), .st (.r 4), .set 5 (.add (.r 1) (.mul (.s 0) (.r 2))),
    .st (.r 5), .ld 6 .x, .ld 7 .x, .ld 8 .y, .ld 9 .y, .set 10 (.sub (.r 6) (.mul (.s 0) (.r 9))), .st (.r 10),
    .set 11 (.add (.r 7) (.mul (.s 0) (.r 8))), .st (.r 11), .ld 12 .x, .ld 13 .x, .ld 14 .y, .ld 15 .y,
    .set 16 (.sub (.r 12) (.mul (.s 0) (.r 15))), .st (.r 16), .set 17 (.add (.r 13) (.mul (.s 0) (.r 14))), .st (.r 17)]
  post := [] }

/-- `add_g5ProjPlus`, include/scalarsite_generic/generic_blas_vadd3_g5.h:15-149 -/
def add_g5ProjPlus : Kern := {
  params := [.out, .x, .y]
  nreg := 18
  mul := 1
  sub := 0
  pre := []
  body := [
  .ld 0 .x, .ld 1 .y, .set 2 (.add (.r 0) (.r 1)), .st (.r 2), .ld 3 .x, .ld 4 .y, .set 5 (.add (.r 3) (.r 4)), .st (.r 5), .ld 6 .x,
    .ld 7 .y, .set 8 (.add (.r 6) (.r 7)), .st (.r 8), .ld 9 .x, .ld 10 .y, .set 11 (.add (.r 9) (.r 10)), .st (.r 11), .ld 12 .x,
    .ld 13 .y, .set 14 (.add (.r 12) (.r 13)), .st (.r 14), .ld 15 .x, .ld 16 .y, .set 17 (.add (.r 15) (.r 16)), .st (.r 17), .ld 0 .x,
    .ld 1 .y, .set 2 (.add (.r 0) (.r 1)), .st (.r 2), .ld 3 .x, .ld 4 .y, .set 5 (.add (.r 3) (.r 4)), .st (.r 5), .ld 6 .x, .ld 7 .y,
    .set 8 (.add (.r 6) (.r 7)), .st (.r 8), .ld 9 .x, .ld 10 .y, .set 11 (.add (.r 9) (.r 10)), .st (.r 11), .ld 12 .x, .ld 13 .y,
    .set 14 (.add (.r 12) (.r 13)), .st (.r 14), .ld 15 .x, .ld 16 .y, .set 17 (.add (.r 15) (.r 16)), .st (.r 17), .skip .y 12, .ld 0 .x,
    .ld 3 .x, .ld 6 .x, .st (.r 0), .ld 9 .x, .st (.r 3), .ld 12 .x, .st (.r 6), .ld 15 .x, .st (.r 9), .ld 0 .x, .st (.r 12), .ld 3 .x,
    .st (.r 15), .ld 6 .x, .st (.r 0), .ld 9 .x, .st (.r 3), .ld 12 .x, .st (.r 6), .ld 15 .x, .st (.r 9), .pull 0 .x 0, .st (.r 12),
    .pull 3 .x 1, .st (.r 15)]
  post := [] }

/-- `add_g5ProjMinus`, include/scalarsite_generic/generic_blas_vadd3_g5.h:153-283 -/
def add_g5ProjMinus : Kern := {
  params := [.out, .x, .y]
  nreg := 18
  mul := 1
  sub := 0
  pre := []
  body := [
  .skip .y 12, .ld 0 .x, .ld 1 .x, .ld 2 .x, .st (.r 0), .ld 3 .x, .st (.r 1), .ld 4 .x, .st (.r 2), .ld 5 .x, .st (.r 3), .ld 0 .x,
    .st (.r 4), .ld 1 .x, .st (.r 5), .ld 2 .x, .st (.r 0), .ld 3 .x, .st (.r 1), .ld 4 .x, .st (.r 2), .ld 5 .x, .st (.r 3), .ld 0 .x,
    .st (.r 4), .ld 1 .x, .st (.r 5), .ld 6 .y, .set 7 (.add (.r 0) (.r 6)), .st (.r 7), .ld 8 .y, .set 9 (.add (.r 1) (.r 8)), .st (.r 9),
    .ld 2 .x, .ld 10 .y, .set 11 (.add (.r 2) (.r 10)), .st (.r 11), .ld 3 .x, .ld 12 .y, .set 13 (.add (.r 3) (.r 12)), .st (.r 13),
    .ld 4 .x, .ld 14 .y, .set 15 (.add (.r 4) (.r 14)), .st (.r 15), .ld 5 .x, .ld 16 .y, .set 17 (.add (.r 5) (.r 16)), .st (.r 17),
    .ld 0 .x, .ld 6 .y, .set 7 (.add (.r 0) (.r 6)), .st (.r 7), .ld 1 .x, .ld 8 .y, .set 9 (.add (.r 1) (.r 8)), .st (.r 9), .ld 2 .x,
    .ld 10 .y, .set 11 (.add (.r 2) (.r 10)), .st (.r 11), .ld 3 .x, .ld 12 .y, .set 13 (.add (.r 3) (.r 12)), .st (.r 13), .ld 4 .x,
    .ld 14 .y, .set 15 (.add (.r 4) (.r 14)), .st (.r 15), .ld 5 .x, .ld 16 .y, .set 17 (.add (.r 5) (.r 16)), .st (.r 17)]
  post := [] }

/-- `sub_g5ProjPlus`, include/scalarsite_generic/generic_blas_vadd3_g5.h:288-421 -/
def sub_g5ProjPlus : Kern := {
  params := [.out, .x, .y]
  nreg := 18
  mul := 1
  sub := 0
  pre := []
  body := [
  .ld 0 .x, .ld 1 .y, .set 2 (.sub (.r 0) (.r 1)), .st (.r 2), .ld 3 .x, .ld 4 .y, .set 5 (.sub (.r 3) (.r 4)), .st (.r 5), .ld 6 .x,
    .ld 7 .y, .set 8 (.sub (.r 6) (.r 7)), .st (.r 8), .ld 9 .x, .ld 10 .y, .set 11 (.sub (.r 9) (.r 10)), .st (.r 11), .ld 12 .x,
    .ld 13 .y, .set 14 (.sub (.r 12) (.r 13)), .st (.r 14), .ld 15 .x, .ld 16 .y, .set 17 (.sub (.r 15) (.r 16)), .st (.r 17), .ld 0 .x,
    .ld 1 .y, .set 2 (.sub (.r 0) (.r 1)), .st (.r 2), .ld 3 .x, .ld 4 .y, .set 5 (.sub (.r 3) (.r 4)), .st (.r 5), .ld 6 .x, .ld 7 .y,
    .set 8 (.sub (.r 6) (.r 7)), .st (.r 8), .ld 9 .x, .ld 10 .y, .set 11 (.sub (.r 9) (.r 10)), .st (.r 11), .ld 12 .x, .ld 13 .y,
    .set 14 (.sub (.r 12) (.r 13)), .st (.r 14), .ld 15 .x, .ld 16 .y, .set 17 (.sub (.r 15) (.r 16)), .st (.r 17), .skip .y 12, .ld 0 .x,
    .ld 3 .x, .ld 6 .x, .st (.r 0), .ld 9 .x, .st (.r 3), .ld 12 .x, .st (.r 6), .ld 15 .x, .st (.r 9), .ld 0 .x, .st (.r 12), .ld 3 .x,
    .st (.r 15), .ld 6 .x, .st (.r 0), .ld 9 .x, .st (.r 3), .ld 12 .x, .st (.r 6), .ld 15 .x, .st (.r 9), .pull 0 .x 0, .st (.r 12),
    .pull 3 .x 1, .st (.r 15)]
  post := [] }

/-- `sub_g5ProjMinus`, include/scalarsite_generic/generic_blas_vadd3_g5.h:425-556 -/
def sub_g5ProjMinus : Kern := {
  params := [.out, .x, .y]
  nreg := 18
  mul := 1
  sub := 0
  pre := []
  body := [
  .skip .y 12, .ld 0 .x, .ld 1 .x, .ld 2 .x, .st (.r 0), .ld 3 .x, .st (.r 1), .ld 4 .x, .st (.r 2), .ld 5 .x, .st (.r 3), .ld 0 .x,
    .st (.r 4), .ld 1 .x, .st (.r 5), .ld 2 .x, .st (.r 0), .ld 3 .x, .st (.r 1), .ld 4 .x, .st (.r 2), .ld 5 .x, .st (.r 3), .ld 0 .x,
    .st (.r 4), .ld 1 .x, .st (.r 5), .ld 6 .y, .set 7 (.sub (.r 0) (.r 6)), .st (.r 7), .ld 8 .y, .set 9 (.sub (.r 1) (.r 8)), .st (.r 9),
    .ld 2 .x, .ld 10 .y, .set 11 (.sub (.r 2) (.r 10)), .st (.r 11), .ld 3 .x, .ld 12 .y, .set 13 (.sub (.r 3) (.r 12)), .st (.r 13),
    .ld 4 .x, .ld 14 .y, .set 15 (.sub (.r 4) (.r 14)), .st (.r 15), .ld 5 .x, .ld 16 .y, .set 17 (.sub (.r 5) (.r 16)), .st (.r 17),
    .ld 0 .x, .ld 6 .y, .set 7 (.sub (.r 0) (.r 6)), .st (.r 7), .ld 1 .x, .ld 8 .y, .set 9 (.sub (.r 1) (.r 8)), .st (.r 9), .ld 2 .x,
    .ld 10 .y, .set 11 (.sub (.r 2) (.r 10)), .st (.r 11), .ld 3 .x, .ld 12 .y, .set 13 (.sub (.r 3) (.r 12)), .st (.r 13), .ld 4 .x,
    .ld 14 .y, .set 15 (.sub (.r 4) (.r 14)), .st (.r 15), .ld 5 .x, .ld 16 .y, .set 17 (.sub (.r 5) (.r 16)), .st (.r 17)]
  post := [] }

/-- `axpbyz_g5ProjPlus`, include/scalarsite_generic/generic_blas_vaxpby3_g5.h:14-184 -/
def axpbyz_g5ProjPlus : Kern := {
  params := [.out, .s 0, .x, .s 2, .y]
  nreg := 18
  mul := 1
  sub := 0
  pre := []
  body := [
  .ld 0 .x, .ld 1 .y, .set 2 (.mul (.s 0) (.r 0)), .set 2 (.add (.r 2) (.mul (.s 2) (.r 1))), .st (.r 2), .ld 3 .x, .ld 4 .y,
    .set 5 (.mul (.s 0) (.r 3)), .set 5 (.add (.r 5) (.mul (.s 2) (.r 4))), .st (.r 5), .ld 6 .x, .ld 7 .y, .set 8 (.mul (.s 0) (.r 6)),
    .set 8 (.add (.r 8) (.mul (.s 2) (.r 7))), .st (.r 8), .ld 9 .x, .ld 10 .y, .set 11 (.mul (.s 0) (.r 9)),
    .set 11 (.add (.r 11) (.mul (.s 2) (.r 10))), .st (.r 11), .ld 12 .x, .ld 13 .y, .set 14 (.mul (.s 0) (.r 12)),
    .set 14 (.add (.r 14) (.mul (.s 2) (.r 13))), .st (.r 14), .ld 15 .x, .ld 16 .y, .set 17 (.mul (.s 0) (.r 15)),
    .set 17 (.add (.r 17) (.mul (.s 2) (.r 16))), .st (.r 17), .ld 0 .x, .ld 1 .y, .set 2 (.mul (.s 0) (.r 0)),
    .set 2 (.add (.r 2) (.mul (.s 2) (.r 1))), .st (.r 2), .ld 3 .x, .ld 4 .y, .set 5 (.mul (.s 0) (.r 3)),
    .set 5 (.add (.r 5) (.mul (.s 2) (.r 4))), .st (.r 5), .ld 6 .x, .ld 7 .y, .set 8 (.mul (.s 0) (.r 6)),
    .set 8 (.add (.r 8) (.mul (.s 2) (.r 7))), .st (.r 8), .ld 9 .x, .ld 10 .y, .set 11 (.mul (.s 0) (.r 9)),
    .set 11 (.add (.r 11) (.mul (.s 2) (.r 10))), .st (.r 11), .ld 12 .x, .ld 13 .y, .set 14 (.mul (.s 0) (.r 12)),
    .set 14 (.add (.r 14) (.mul (.s 2) (.r 13))), .st (.r 14), .ld 15 .x, .ld 16 .y, .set 17 (.mul (.s 0) (.r 15)),
    .set 17 (.add (.r 17) (.mul (.s 2) (.r 16))), .st (.r 17), .skip .y 12, .ld 0 .x, .set 2 (.mul (.s 0) (.r 0)), .st (.r 2), .ld 3 .x,
    .set 5 (.mul (.s 0) (.r 3)), .st (.r 5), .ld 6 .x, .set 8 (.mul (.s 0) (.r 6)), .st (.r 8), .ld 9 .x, .set 11 (.mul (.s 0) (.r 9)),
    .st (.r 11), .ld 12 .x, .set 14 (.mul (.s 0) (.r 12)), .st (.r 14), .ld 15 .x, .set 17 (.mul (.s 0) (.r 15)), .st (.r 17), .ld 0 .x,
    .pull 1 .y 0, .set 2 (.mul (.s 0) (.r 0)), .st (.r 2), .ld 3 .x, .set 5 (.mul (.s 0) (.r 3)), .st (.r 5), .ld 6 .x,
    .set 8 (.mul (.s 0) (.r 6)), .st (.r 8), .ld 9 .x, .set 11 (.mul (.s 0) (.r 9)), .st (.r 11), .ld 12 .x, .set 14 (.mul (.s 0) (.r 12)),
    .st (.r 14), .ld 15 .x, .set 17 (.mul (.s 0) (.r 15)), .st (.r 17)]
  post := [] }

/-- `axpbyz_g5ProjMinus`, include/scalarsite_generic/generic_blas_vaxpby3_g5.h:187-345 -/
def axpbyz_g5ProjMinus : Kern := {
  params := [.out, .s 0, .x, .s 2, .y]
  nreg := 18
  mul := 1
  sub := 0
  pre := []
  body := [
  .skip .y 12, .ld 0 .x, .st (.mul (.s 0) (.r 0)), .ld 1 .x, .st (.mul (.s 0) (.r 1)), .ld 2 .x, .st (.mul (.s 0) (.r 2)), .ld 3 .x,
    .st (.mul (.s 0) (.r 3)), .ld 4 .x, .st (.mul (.s 0) (.r 4)), .ld 5 .x, .st (.mul (.s 0) (.r 5)), .ld 0 .x, .st (.mul (.s 0) (.r 0)),
    .ld 1 .x, .st (.mul (.s 0) (.r 1)), .ld 2 .x, .st (.mul (.s 0) (.r 2)), .ld 3 .x, .st (.mul (.s 0) (.r 3)), .ld 4 .x,
    .st (.mul (.s 0) (.r 4)), .ld 5 .x, .st (.mul (.s 0) (.r 5)), .ld 0 .x, .ld 6 .y, .set 7 (.mul (.s 0) (.r 0)),
    .set 7 (.add (.r 7) (.mul (.s 2) (.r 6))), .st (.r 7), .ld 1 .x, .ld 8 .y, .set 9 (.mul (.s 0) (.r 1)),
    .set 9 (.add (.r 9) (.mul (.s 2) (.r 8))), .st (.r 9), .ld 2 .x, .ld 10 .y, .set 11 (.mul (.s 0) (.r 2)),
    .set 11 (.add (.r 11) (.mul (.s 2) (.r 10))), .st (.r 11), .ld 3 .x, .ld 12 .y, .set 13 (.mul (.s 0) (.r 3)),
    .set 13 (.add (.r 13) (.mul (.s 2) (.r 12))), .st (.r 13), .ld 4 .x, .ld 14 .y, .set 15 (.mul (.s 0) (.r 4)),
    .set 15 (.add (.r 15) (.mul (.s 2) (.r 14))), .st (.r 15), .ld 5 .x, .ld 16 .y, .set 17 (.mul (.s 0) (.r 5)),
    .set 17 (.add (.r 17) (.mul (.s 2) (.r 16))), .st (.r 17), .ld 0 .x, .ld 6 .y, .set 7 (.mul (.s 0) (.r 0)),
    .set 7 (.add (.r 7) (.mul (.s 2) (.r 6))), .st (.r 7), .ld 1 .x, .ld 8 .y, .set 9 (.mul (.s 0) (.r 1)),
    .set 9 (.add (.r 9) (.mul (.s 2) (.r 8))), .st (.r 9), .ld 2 .x, .ld 10 .y, .set 11 (.mul (.s 0) (.r 2)),
    .set 11 (.add (.r 11) (.mul (.s 2) (.r 10))), .st (.r 11), .ld 3 .x, .ld 12 .y, .set 13 (.mul (.s 0) (.r 3)),
    .set 13 (.add (.r 13) (.mul (.s 2) (.r 12))), .st (.r 13), .ld 4 .x, .ld 14 .y, .set 15 (.mul (.s 0) (.r 4)),
    .set 15 (.add (.r 15) (.mul (.s 2) (.r 14))), .st (.r 15), .ld 5 .x, .ld 16 .y, .set 17 (.mul (.s 0) (.r 5)),
    .set 17 (.add (.r 17) (.mul (.s 2) (.r 16))), .st (.r 17)]
  post := [] }

/-- `axmbyz_g5ProjPlus`, include/scalarsite_generic/generic_blas_vaxpby3_g5.h:350-520 -/
def axmbyz_g5ProjPlus : Kern := {
  params := [.out, .s 0, .x, .s 2, .y]
  nreg := 18
  mul := 1
  sub := 0
  pre := []
  body := [
  .ld 0 .x, .ld 1 .y, .set 2 (.mul (.s 0) (.r 0)), .set 2 (.sub (.r 2) (.mul (.s 2) (.r 1))), .st (.r 2), .ld 3 .x, .ld 4 .y,
    .set 5 (.mul (.s 0) (.r 3)), .set 5 (.sub (.r 5) (.mul (.s 2) (.r 4))), .st (.r 5), .ld 6 .x, .ld 7 .y, .set 8 (.mul (.s 0) (.r 6)),
    .set 8 (.sub (.r 8) (.mul (.s 2) (.r 7))), .st (.r 8), .ld 9 .x, .ld 10 .y, .set 11 (.mul (.s 0) (.r 9)),
    .set 11 (.sub (.r 11) (.mul (.s 2) (.r 10))), .st (.r 11), .ld 12 .x, .ld 13 .y, .set 14 (.mul (.s 0) (.r 12)),
    .set 14 (.sub (.r 14) (.mul (.s 2) (.r 13))), .st (.r 14), .ld 15 .x, .ld 16 .y, .set 17 (.mul (.s 0) (.r 15)),
    .set 17 (.sub (.r 17) (.mul (.s 2) (.r 16))), .st (.r 17), .ld 0 .x, .ld 1 .y, .set 2 (.mul (.s 0) (.r 0)),
    .set 2 (.sub (.r 2) (.mul (.s 2) (.r 1))), .st (.r 2), .ld 3 .x, .ld 4 .y, .set 5 (.mul (.s 0) (.r 3)),
    .set 5 (.sub (.r 5) (.mul (.s 2) (.r 4))), .st (.r 5), .ld 6 .x, .ld 7 .y, .set 8 (.mul (.s 0) (.r 6)),
    .set 8 (.sub (.r 8) (.mul (.s 2) (.r 7))), .st (.r 8), .ld 9 .x, .ld 10 .y, .set 11 (.mul (.s 0) (.r 9)),
    .set 11 (.sub (.r 11) (.mul (.s 2) (.r 10))), .st (.r 11), .ld 12 .x, .ld 13 .y, .set 14 (.mul (.s 0) (.r 12)),
    .set 14 (.sub (.r 14) (.mul (.s 2) (.r 13))), .st (.r 14), .ld 15 .x, .ld 16 .y, .set 17 (.mul (.s 0) (.r 15)),
    .set 17 (.sub (.r 17) (.mul (.s 2) (.r 16))), .st (.r 17), .skip .y 12, .ld 0 .x, .set 2 (.mul (.s 0) (.r 0)), .st (.r 2), .ld 3 .x,
    .set 5 (.mul (.s 0) (.r 3)), .st (.r 5), .ld 6 .x, .set 8 (.mul (.s 0) (.r 6)), .st (.r 8), .ld 9 .x, .set 11 (.mul (.s 0) (.r 9)),
    .st (.r 11), .ld 12 .x, .set 14 (.mul (.s 0) (.r 12)), .st (.r 14), .ld 15 .x, .set 17 (.mul (.s 0) (.r 15)), .st (.r 17), .ld 0 .x,
    .pull 1 .y 0, .set 2 (.mul (.s 0) (.r 0)), .st (.r 2), .ld 3 .x, .set 5 (.mul (.s 0) (.r 3)), .st (.r 5), .ld 6 .x,
    .set 8 (.mul (.s 0) (.r 6)), .st (.r 8), .ld 9 .x, .set 11 (.mul (.s 0) (.r 9)), .st (.r 11), .ld 12 .x, .set 14 (.mul (.s 0) (.r 12)),
    .st (.r 14), .ld 15 .x, .set 17 (.mul (.s 0) (.r 15)), .st (.r 17)]
  post := [] }

/-- `axmbyz_g5ProjMinus`, include/scalarsite_generic/generic_blas_vaxpby3_g5.h:524-682 -/
def axmbyz_g5ProjMinus : Kern := {
  params := [.out, .s 0, .x, .s 2, .y]
  nreg := 18
  mul := 1
  sub := 0
  pre := []
  body := [
  .skip .y 12, .ld 0 .x, .st (.mul (.s 0) (.r 0)), .ld 1 .x, .st (.mul (.s 0) (.r 1)), .ld 2 .x, .st (.mul (.s 0) (.r 2)), .ld 3 .x,
    .st (.mul (.s 0) (.r 3)), .ld 4 .x, .st (.mul (.s 0) (.r 4)), .ld 5 .x, .st (.mul (.s 0) (.r 5)), .ld 0 .x, .st (.mul (.s 0) (.r 0)),
    .ld 1 .x, .st (.mul (.s 0) (.r 1)), .ld 2 .x, .st (.mul (.s 0) (.r 2)), .ld 3 .x, .st (.mul (.s 0) (.r 3)), .ld 4 .x,
    .st (.mul (.s 0) (.r 4)), .ld 5 .x, .st (.mul (.s 0) (.r 5)), .ld 0 .x, .ld 6 .y, .set 7 (.mul (.s 0) (.r 0)),
    .set 7 (.sub (.r 7) (.mul (.s 2) (.r 6))), .st (.r 7), .ld 1 .x, .ld 8 .y, .set 9 (.mul (.s 0) (.r 1)),
    .set 9 (.sub (.r 9) (.mul (.s 2) (.r 8))), .st (.r 9), .ld 2 .x, .ld 10 .y, .set 11 (.mul (.s 0) (.r 2)),
    .set 11 (.sub (.r 11) (.mul (.s 2) (.r 10))), .st (.r 11), .ld 3 .x, .ld 12 .y, .set 13 (.mul (.s 0) (.r 3)),
    .set 13 (.sub (.r 13) (.mul (.s 2) (.r 12))), .st (.r 13), .ld 4 .x, .ld 14 .y, .set 15 (.mul (.s 0) (.r 4)),
    .set 15 (.sub (.r 15) (.mul (.s 2) (.r 14))), .st (.r 15), .ld 5 .x, .ld 16 .y, .set 17 (.mul (.s 0) (.r 5)),
    .set 17 (.sub (.r 17) (.mul (.s 2) (.r 16))), .st (.r 17), .ld 0 .x, .ld 6 .y, .set 7 (.mul (.s 0) (.r 0)),
    .set 7 (.sub (.r 7) (.mul (.s 2) (.r 6))), .st (.r 7), .ld 1 .x, .ld 8 .y, .set 9 (.mul (.s 0) (.r 1)),
    .set 9 (.sub (.r 9) (.mul (.s 2) (.r 8))), .st (.r 9), .ld 2 .x, .ld 10 .y, .set 11 (.mul (.s 0) (.r 2)),
    .set 11 (.sub (.r 11) (.mul (.s 2) (.r 10))), .st (.r 11), .ld 3 .x, .ld 12 .y, .set 13 (.mul (.s 0) (.r 3)),
    .set 13 (.sub (.r 13) (.mul (.s 2) (.r 12))), .st (.r 13), .ld 4 .x, .ld 14 .y, .set 15 (.mul (.s 0) (.r 4)),
    .set 15 (.sub (.r 15) (.mul (.s 2) (.r 14))), .st (.r 15), .ld 5 .x, .ld 16 .y, .set 17 (.mul (.s 0) (.r 5)),
    .set 17 (.sub (.r 17) (.mul (.s 2) (.r 16))), .st (.r 17)]
  post := [] }

/-- `axpyz_g5ProjPlus`, include/scalarsite_generic/generic_blas_vaxpy3_g5.h:14-169 -/
def axpyz_g5ProjPlus : Kern := {
  params := [.out, .s 0, .x, .y]
  nreg := 18
  mul := 1
  sub := 0
  pre := []
  body := [
  .ld 0 .x, .ld 1 .y, .set 2 (.add (.mul (.s 0) (.r 0)) (.r 1)), .st (.r 2), .ld 3 .x, .ld 4 .y, .set 5 (.add (.mul (.s 0) (.r 3)) (.r 4)),
    .st (.r 5), .ld 6 .x, .ld 7 .y, .set 8 (.add (.mul (.s 0) (.r 6)) (.r 7)), .st (.r 8), .ld 9 .x, .ld 10 .y,
    .set 11 (.add (.mul (.s 0) (.r 9)) (.r 10)), .st (.r 11), .ld 12 .x, .ld 13 .y, .set 14 (.add (.mul (.s 0) (.r 12)) (.r 13)),
    .st (.r 14), .ld 15 .x, .ld 16 .y, .set 17 (.add (.mul (.s 0) (.r 15)) (.r 16)), .st (.r 17), .ld 0 .x, .ld 1 .y,
    .set 2 (.add (.mul (.s 0) (.r 0)) (.r 1)), .st (.r 2), .ld 3 .x, .ld 4 .y, .set 5 (.add (.mul (.s 0) (.r 3)) (.r 4)), .st (.r 5),
    .ld 6 .x, .ld 7 .y, .set 8 (.add (.mul (.s 0) (.r 6)) (.r 7)), .st (.r 8), .ld 9 .x, .ld 10 .y,
    .set 11 (.add (.mul (.s 0) (.r 9)) (.r 10)), .st (.r 11), .ld 12 .x, .ld 13 .y, .set 14 (.add (.mul (.s 0) (.r 12)) (.r 13)),
    .st (.r 14), .ld 15 .x, .ld 16 .y, .set 17 (.add (.mul (.s 0) (.r 15)) (.r 16)), .st (.r 17), .skip .y 12, .ld 0 .x,
    .set 2 (.mul (.s 0) (.r 0)), .st (.r 2), .ld 3 .x, .set 5 (.mul (.s 0) (.r 3)), .st (.r 5), .ld 6 .x, .set 8 (.mul (.s 0) (.r 6)),
    .st (.r 8), .ld 9 .x, .set 11 (.mul (.s 0) (.r 9)), .st (.r 11), .ld 12 .x, .set 14 (.mul (.s 0) (.r 12)), .st (.r 14), .ld 15 .x,
    .set 17 (.mul (.s 0) (.r 15)), .st (.r 17), .ld 0 .x, .pull 1 .y 0, .set 2 (.mul (.s 0) (.r 0)), .st (.r 2), .ld 3 .x,
    .set 5 (.mul (.s 0) (.r 3)), .st (.r 5), .ld 6 .x, .set 8 (.mul (.s 0) (.r 6)), .st (.r 8), .ld 9 .x, .set 11 (.mul (.s 0) (.r 9)),
    .st (.r 11), .ld 12 .x, .set 14 (.mul (.s 0) (.r 12)), .st (.r 14), .ld 15 .x, .set 17 (.mul (.s 0) (.r 15)), .st (.r 17)]
  post := [] }

/-- `axpyz_g5ProjMinus`, include/scalarsite_generic/generic_blas_vaxpy3_g5.h:172-315 -/
def axpyz_g5ProjMinus : Kern := {
  params := [.out, .s 0, .x, .y]
  nreg := 18
  mul := 1
  sub := 0
  pre := []
  body := [
  .skip .y 12, .ld 0 .x, .st (.mul (.s 0) (.r 0)), .ld 1 .x, .st (.mul (.s 0) (.r 1)), .ld 2 .x, .st (.mul (.s 0) (.r 2)), .ld 3 .x,
    .st (.mul (.s 0) (.r 3)), .ld 4 .x, .st (.mul (.s 0) (.r 4)), .ld 5 .x, .st (.mul (.s 0) (.r 5)), .ld 0 .x, .st (.mul (.s 0) (.r 0)),
    .ld 1 .x, .st (.mul (.s 0) (.r 1)), .ld 2 .x, .st (.mul (.s 0) (.r 2)), .ld 3 .x, .st (.mul (.s 0) (.r 3)), .ld 4 .x,
    .st (.mul (.s 0) (.r 4)), .ld 5 .x, .st (.mul (.s 0) (.r 5)), .ld 0 .x, .ld 6 .y, .set 7 (.add (.mul (.s 0) (.r 0)) (.r 6)),
    .st (.r 7), .ld 1 .x, .ld 8 .y, .set 9 (.add (.mul (.s 0) (.r 1)) (.r 8)), .st (.r 9), .ld 2 .x, .ld 10 .y,
    .set 11 (.add (.mul (.s 0) (.r 2)) (.r 10)), .st (.r 11), .ld 3 .x, .ld 12 .y, .set 13 (.add (.mul (.s 0) (.r 3)) (.r 12)),
    .st (.r 13), .ld 4 .x, .ld 14 .y, .set 15 (.add (.mul (.s 0) (.r 4)) (.r 14)), .st (.r 15), .ld 5 .x, .ld 16 .y,
    .set 17 (.add (.mul (.s 0) (.r 5)) (.r 16)), .st (.r 17), .ld 0 .x, .ld 6 .y, .set 7 (.add (.mul (.s 0) (.r 0)) (.r 6)), .st (.r 7),
    .ld 1 .x, .ld 8 .y, .set 9 (.add (.mul (.s 0) (.r 1)) (.r 8)), .st (.r 9), .ld 2 .x, .ld 10 .y,
    .set 11 (.add (.mul (.s 0) (.r 2)) (.r 10)), .st (.r 11), .ld 3 .x, .ld 12 .y, .set 13 (.add (.mul (.s 0) (.r 3)) (.r 12)),
    .st (.r 13), .ld 4 .x, .ld 14 .y, .set 15 (.add (.mul (.s 0) (.r 4)) (.r 14)), .st (.r 15), .ld 5 .x, .ld 16 .y,
    .set 17 (.add (.mul (.s 0) (.r 5)) (.r 16)), .st (.r 17)]
  post := [] }

/-- `axmyz_g5ProjPlus`, include/scalarsite_generic/generic_blas_vaxpy3_g5.h:321-464 -/
def axmyz_g5ProjPlus : Kern := {
  params := [.out, .s 0, .x, .y]
  nreg := 18
  mul := 1
  sub := 0
  pre := []
  body := [
  .ld 0 .x, .ld 1 .y, .set 2 (.sub (.mul (.s 0) (.r 0)) (.r 1)), .st (.r 2), .ld 3 .x, .ld 4 .y, .set 5 (.sub (.mul (.s 0) (.r 3)) (.r 4)),
    .st (.r 5), .ld 6 .x, .ld 7 .y, .set 8 (.sub (.mul (.s 0) (.r 6)) (.r 7)), .st (.r 8), .ld 9 .x, .ld 10 .y,
    .set 11 (.sub (.mul (.s 0) (.r 9)) (.r 10)), .st (.r 11), .ld 12 .x, .ld 13 .y, .set 14 (.sub (.mul (.s 0) (.r 12)) (.r 13)),
    .st (.r 14), .ld 15 .x, .ld 16 .y, .set 17 (.sub (.mul (.s 0) (.r 15)) (.r 16)), .st (.r 17), .ld 0 .x, .ld 1 .y,
    .set 2 (.sub (.mul (.s 0) (.r 0)) (.r 1)), .st (.r 2), .ld 3 .x, .ld 4 .y, .set 5 (.sub (.mul (.s 0) (.r 3)) (.r 4)), .st (.r 5),
    .ld 6 .x, .ld 7 .y, .set 8 (.sub (.mul (.s 0) (.r 6)) (.r 7)), .st (.r 8), .ld 9 .x, .ld 10 .y,
    .set 11 (.sub (.mul (.s 0) (.r 9)) (.r 10)), .st (.r 11), .ld 12 .x, .ld 13 .y, .set 14 (.sub (.mul (.s 0) (.r 12)) (.r 13)),
    .st (.r 14), .ld 15 .x, .ld 16 .y, .set 17 (.sub (.mul (.s 0) (.r 15)) (.r 16)), .st (.r 17), .skip .y 12, .ld 0 .x,
    .st (.mul (.s 0) (.r 0)), .ld 3 .x, .st (.mul (.s 0) (.r 3)), .ld 6 .x, .st (.mul (.s 0) (.r 6)), .ld 9 .x, .st (.mul (.s 0) (.r 9)),
    .ld 12 .x, .st (.mul (.s 0) (.r 12)), .ld 15 .x, .st (.mul (.s 0) (.r 15)), .ld 0 .x, .st (.mul (.s 0) (.r 0)), .ld 3 .x,
    .st (.mul (.s 0) (.r 3)), .ld 6 .x, .st (.mul (.s 0) (.r 6)), .ld 9 .x, .st (.mul (.s 0) (.r 9)), .ld 12 .x, .st (.mul (.s 0) (.r 12)),
    .ld 15 .x, .st (.mul (.s 0) (.r 15))]
  post := [] }

/-- `axmyz_g5ProjMinus`, include/scalarsite_generic/generic_blas_vaxpy3_g5.h:467-610 -/
def axmyz_g5ProjMinus : Kern := {
  params := [.out, .s 0, .x, .y]
  nreg := 18
  mul := 1
  sub := 0
  pre := []
  body := [
  .skip .y 12, .ld 0 .x, .st (.mul (.s 0) (.r 0)), .ld 1 .x, .st (.mul (.s 0) (.r 1)), .ld 2 .x, .st (.mul (.s 0) (.r 2)), .ld 3 .x,
    .st (.mul (.s 0) (.r 3)), .ld 4 .x, .st (.mul (.s 0) (.r 4)), .ld 5 .x, .st (.mul (.s 0) (.r 5)), .ld 0 .x, .st (.mul (.s 0) (.r 0)),
    .ld 1 .x, .st (.mul (.s 0) (.r 1)), .ld 2 .x, .st (.mul (.s 0) (.r 2)), .ld 3 .x, .st (.mul (.s 0) (.r 3)), .ld 4 .x,
    .st (.mul (.s 0) (.r 4)), .ld 5 .x, .st (.mul (.s 0) (.r 5)), .ld 0 .x, .ld 6 .y, .set 7 (.sub (.mul (.s 0) (.r 0)) (.r 6)),
    .st (.r 7), .ld 1 .x, .ld 8 .y, .set 9 (.sub (.mul (.s 0) (.r 1)) (.r 8)), .st (.r 9), .ld 2 .x, .ld 10 .y,
    .set 11 (.sub (.mul (.s 0) (.r 2)) (.r 10)), .st (.r 11), .ld 3 .x, .ld 12 .y, .set 13 (.sub (.mul (.s 0) (.r 3)) (.r 12)),
    .st (.r 13), .ld 4 .x, .ld 14 .y, .set 15 (.sub (.mul (.s 0) (.r 4)) (.r 14)), .st (.r 15), .ld 5 .x, .ld 16 .y,
    .set 17 (.sub (.mul (.s 0) (.r 5)) (.r 16)), .st (.r 17), .ld 0 .x, .ld 6 .y, .set 7 (.sub (.mul (.s 0) (.r 0)) (.r 6)), .st (.r 7),
    .ld 1 .x, .ld 8 .y, .set 9 (.sub (.mul (.s 0) (.r 1)) (.r 8)), .st (.r 9), .ld 2 .x, .ld 10 .y,
    .set 11 (.sub (.mul (.s 0) (.r 2)) (.r 10)), .st (.r 11), .ld 3 .x, .ld 12 .y, .set 13 (.sub (.mul (.s 0) (.r 3)) (.r 12)),
    .st (.r 13), .ld 4 .x, .ld 14 .y, .set 15 (.sub (.mul (.s 0) (.r 4)) (.r 14)), .st (.r 15), .ld 5 .x, .ld 16 .y,
    .set 17 (.sub (.mul (.s 0) (.r 5)) (.r 16)), .st (.r 17)]
  post := [] }

/-- `xpayz_g5ProjPlus`, include/scalarsite_generic/generic_blas_vaypx3_g5.h:15-151 -/
def xpayz_g5ProjPlus : Kern := {
  params := [.out, .s 0, .x, .y]
  nreg := 18
  mul := 1
  sub := 0
  pre := []
  body := [
  .ld 0 .x, .ld 1 .y, .set 2 (.add (.r 0) (.mul (.s 0) (.r 1))), .st (.r 2), .ld 3 .x, .ld 4 .y, .set 5 (.add (.r 3) (.mul (.s 0) (.r 4))),
    .st (.r 5), .ld 6 .x, .ld 7 .y, .set 8 (.add (.r 6) (.mul (.s 0) (.r 7))), .st (.r 8), .ld 9 .x, .ld 10 .y,
    .set 11 (.add (.r 9) (.mul (.s 0) (.r 10))), .st (.r 11), .ld 12 .x, .ld 13 .y, .set 14 (.add (.r 12) (.mul (.s 0) (.r 13))),
    .st (.r 14), .ld 15 .x, .ld 16 .y, .set 17 (.add (.r 15) (.mul (.s 0) (.r 16))), .st (.r 17), .ld 0 .x, .ld 1 .y,
    .set 2 (.add (.r 0) (.mul (.s 0) (.r 1))), .st (.r 2), .ld 3 .x, .ld 4 .y, .set 5 (.add (.r 3) (.mul (.s 0) (.r 4))), .st (.r 5),
    .ld 6 .x, .ld 7 .y, .set 8 (.add (.r 6) (.mul (.s 0) (.r 7))), .st (.r 8), .ld 9 .x, .ld 10 .y,
    .set 11 (.add (.r 9) (.mul (.s 0) (.r 10))), .st (.r 11), .ld 12 .x, .ld 13 .y, .set 14 (.add (.r 12) (.mul (.s 0) (.r 13))),
    .st (.r 14), .ld 15 .x, .ld 16 .y, .set 17 (.add (.r 15) (.mul (.s 0) (.r 16))), .st (.r 17), .skip .y 12, .ld 0 .x, .ld 3 .x,
    .ld 6 .x, .st (.r 0), .ld 9 .x, .st (.r 3), .ld 12 .x, .st (.r 6), .ld 15 .x, .st (.r 9), .ld 0 .x, .st (.r 12), .ld 3 .x, .st (.r 15),
    .ld 6 .x, .st (.r 0), .ld 9 .x, .st (.r 3), .ld 12 .x, .st (.r 6), .ld 15 .x, .st (.r 9), .pull 0 .x 0, .st (.r 12), .pull 3 .x 1,
    .st (.r 15)]
  post := [] }

/-- `xpayz_g5ProjMinus`, include/scalarsite_generic/generic_blas_vaypx3_g5.h:154-287 -/
def xpayz_g5ProjMinus : Kern := {
  params := [.out, .s 0, .x, .y]
  nreg := 18
  mul := 1
  sub := 0
  pre := []
  body := [
  .skip .y 12, .ld 0 .x, .ld 1 .x, .ld 2 .x, .st (.r 0), .ld 3 .x, .st (.r 1), .ld 4 .x, .st (.r 2), .ld 5 .x, .st (.r 3), .ld 0 .x,
    .st (.r 4), .ld 1 .x, .st (.r 5), .ld 2 .x, .st (.r 0), .ld 3 .x, .st (.r 1), .ld 4 .x, .st (.r 2), .ld 5 .x, .st (.r 3), .ld 0 .x,
    .st (.r 4), .ld 1 .x, .st (.r 5), .ld 6 .y, .set 7 (.add (.r 0) (.mul (.s 0) (.r 6))), .st (.r 7), .ld 8 .y,
    .set 9 (.add (.r 1) (.mul (.s 0) (.r 8))), .st (.r 9), .ld 2 .x, .ld 10 .y, .set 11 (.add (.r 2) (.mul (.s 0) (.r 10))), .st (.r 11),
    .ld 3 .x, .ld 12 .y, .set 13 (.add (.r 3) (.mul (.s 0) (.r 12))), .st (.r 13), .ld 4 .x, .ld 14 .y,
    .set 15 (.add (.r 4) (.mul (.s 0) (.r 14))), .st (.r 15), .ld 5 .x, .ld 16 .y, .set 17 (.add (.r 5) (.mul (.s 0) (.r 16))),
    .st (.r 17), .ld 0 .x, .ld 6 .y, .set 7 (.add (.r 0) (.mul (.s 0) (.r 6))), .st (.r 7), .ld 1 .x, .ld 8 .y,
    .set 9 (.add (.r 1) (.mul (.s 0) (.r 8))), .st (.r 9), .ld 2 .x, .ld 10 .y, .set 11 (.add (.r 2) (.mul (.s 0) (.r 10))), .st (.r 11),
    .ld 3 .x, .ld 12 .y, .set 13 (.add (.r 3) (.mul (.s 0) (.r 12))), .st (.r 13), .ld 4 .x, .ld 14 .y,
    .set 15 (.add (.r 4) (.mul (.s 0) (.r 14))), .st (.r 15), .ld 5 .x, .ld 16 .y, .set 17 (.add (.r 5) (.mul (.s 0) (.r 16))), .st (.r 17)]
  post := [] }

/-- `xmayz_g5ProjPlus`, include/scalarsite_generic/generic_blas_vaypx3_g5.h:292-428 -/
def xmayz_g5ProjPlus : Kern := {
  params := [.out, .s 0, .x, .y]
  nreg := 18
  mul := 1
  sub := 0
  pre := []
  body := [
  .ld 0 .x, .ld 1 .y, .set 2 (.sub (.r 0) (.mul (.s 0) (.r 1))), .st (.r 2), .ld 3 .x, .ld 4 .y, .set 5 (.sub (.r 3) (.mul (.s 0) (.r 4))),
    .st (.r 5), .ld 6 .x, .ld 7 .y, .set 8 (.sub (.r 6) (.mul (.s 0) (.r 7))), .st (.r 8), .ld 9 .x, .ld 10 .y,
    .set 11 (.sub (.r 9) (.mul (.s 0) (.r 10))), .st (.r 11), .ld 12 .x, .ld 13 .y, .set 14 (.sub (.r 12) (.mul (.s 0) (.r 13))),
    .st (.r 14), .ld 15 .x, .ld 16 .y, .set 17 (.sub (.r 15) (.mul (.s 0) (.r 16))), .st (.r 17), .ld 0 .x, .ld 1 .y,
    .set 2 (.sub (.r 0) (.mul (.s 0) (.r 1))), .st (.r 2), .ld 3 .x, .ld 4 .y, .set 5 (.sub (.r 3) (.mul (.s 0) (.r 4))), .st (.r 5),
    .ld 6 .x, .ld 7 .y, .set 8 (.sub (.r 6) (.mul (.s 0) (.r 7))), .st (.r 8), .ld 9 .x, .ld 10 .y,
    .set 11 (.sub (.r 9) (.mul (.s 0) (.r 10))), .st (.r 11), .ld 12 .x, .ld 13 .y, .set 14 (.sub (.r 12) (.mul (.s 0) (.r 13))),
    .st (.r 14), .ld 15 .x, .ld 16 .y, .set 17 (.sub (.r 15) (.mul (.s 0) (.r 16))), .st (.r 17), .skip .y 12, .ld 0 .x, .ld 3 .x,
    .ld 6 .x, .st (.r 0), .ld 9 .x, .st (.r 3), .ld 12 .x, .st (.r 6), .ld 15 .x, .st (.r 9), .ld 0 .x, .st (.r 12), .ld 3 .x, .st (.r 15),
    .ld 6 .x, .st (.r 0), .ld 9 .x, .st (.r 3), .ld 12 .x, .st (.r 6), .ld 15 .x, .st (.r 9), .pull 0 .x 0, .st (.r 12), .pull 3 .x 1,
    .st (.r 15)]
  post := [] }

/-- `xmayz_g5ProjMinus`, include/scalarsite_generic/generic_blas_vaypx3_g5.h:431-564 -/
def xmayz_g5ProjMinus : Kern := {
  params := [.out, .s 0, .x, .y]
  nreg := 18
  mul := 1
  sub := 0
  pre := []
  body := [
  .skip .y 12, .ld 0 .x, .ld 1 .x, .ld 2 .x, .st (.r 0), .ld 3 .x, .st (.r 1), .ld 4 .x, .st (.r 2), .ld 5 .x, .st (.r 3), .ld 0 .x,
    .st (.r 4), .ld 1 .x, .st (.r 5), .ld 2 .x, .st (.r 0), .ld 3 .x, .st (.r 1), .ld 4 .x, .st (.r 2), .ld 5 .x, .st (.r 3), .ld 0 .x,
    .st (.r 4), .ld 1 .x, .st (.r 5), .ld 6 .y, .set 7 (.sub (.r 0) (.mul (.s 0) (.r 6))), .st (.r 7), .ld 8 .y,
    .set 9 (.sub (.r 1) (.mul (.s 0) (.r 8))), .st (.r 9), .ld 2 .x, .ld 10 .y, .set 11 (.sub (.r 2) (.mul (.s 0) (.r 10))), .st (.r 11),
    .ld 3 .x, .ld 12 .y, .set 13 (.sub (.r 3) (.mul (.s 0) (.r 12))), .st (.r 13), .ld 4 .x, .ld 14 .y,
    .set 15 (.sub (.r 4) (.mul (.s 0) (.r 14))), .st (.r 15), .ld 5 .x, .ld 16 .y, .set 17 (.sub (.r 5) (.mul (.s 0) (.r 16))),
    .st (.r 17), .ld 0 .x, .ld 6 .y, .set 7 (.sub (.r 0) (.mul (.s 0) (.r 6))), .st (.r 7), .ld 1 .x, .ld 8 .y,
    .set 9 (.sub (.r 1) (.mul (.s 0) (.r 8))), .st (.r 9), .ld 2 .x, .ld 10 .y, .set 11 (.sub (.r 2) (.mul (.s 0) (.r 10))), .st (.r 11),
    .ld 3 .x, .ld 12 .y, .set 13 (.sub (.r 3) (.mul (.s 0) (.r 12))), .st (.r 13), .ld 4 .x, .ld 14 .y,
    .set 15 (.sub (.r 4) (.mul (.s 0) (.r 14))), .st (.r 15), .ld 5 .x, .ld 16 .y, .set 17 (.sub (.r 5) (.mul (.s 0) (.r 16))), .st (.r 17)]
  post := [] }

/-- `scal_g5ProjPlus`, include/scalarsite_generic/generic_blas_vscal_g5.h:15-111 -/
def scal_g5ProjPlus : Kern := {
  params := [.out, .s 0, .x]
  nreg := 12
  mul := 1
  sub := 0
  pre := []
  body := [
  .ld 0 .x, .set 1 (.mul (.s 0) (.r 0)), .st (.r 1), .ld 2 .x, .set 3 (.mul (.s 0) (.r 2)), .st (.r 3), .ld 4 .x,
    .set 5 (.mul (.s 0) (.r 4)), .st (.r 5), .ld 6 .x, .set 7 (.mul (.s 0) (.r 6)), .st (.r 7), .ld 8 .x, .set 9 (.mul (.s 0) (.r 8)),
    .st (.r 9), .ld 10 .x, .set 11 (.mul (.s 0) (.r 10)), .st (.r 11), .ld 0 .x, .set 1 (.mul (.s 0) (.r 0)), .st (.r 1), .ld 2 .x,
    .set 3 (.mul (.s 0) (.r 2)), .st (.r 3), .ld 4 .x, .set 5 (.mul (.s 0) (.r 4)), .st (.r 5), .ld 6 .x, .set 7 (.mul (.s 0) (.r 6)),
    .st (.r 7), .ld 8 .x, .set 9 (.mul (.s 0) (.r 8)), .st (.r 9), .ld 10 .x, .set 11 (.mul (.s 0) (.r 10)), .st (.r 11), .skip .x 12,
    .st .zero, .st .zero, .st .zero, .st .zero, .st .zero, .st .zero, .st .zero, .st .zero, .st .zero, .st .zero, .st .zero, .st .zero]
  post := [] }

/-- `scal_g5ProjMinus`, include/scalarsite_generic/generic_blas_vscal_g5.h:115-215 -/
def scal_g5ProjMinus : Kern := {
  params := [.out, .s 0, .x]
  nreg := 12
  mul := 1
  sub := 0
  pre := []
  body := [
  .skip .x 12, .st .zero, .st .zero, .st .zero, .st .zero, .st .zero, .st .zero, .st .zero, .st .zero, .st .zero, .st .zero, .st .zero,
    .st .zero, .ld 0 .x, .set 1 (.mul (.s 0) (.r 0)), .st (.r 1), .ld 2 .x, .set 3 (.mul (.s 0) (.r 2)), .st (.r 3), .ld 4 .x,
    .set 5 (.mul (.s 0) (.r 4)), .st (.r 5), .ld 6 .x, .set 7 (.mul (.s 0) (.r 6)), .st (.r 7), .ld 8 .x, .set 9 (.mul (.s 0) (.r 8)),
    .st (.r 9), .ld 10 .x, .set 11 (.mul (.s 0) (.r 10)), .st (.r 11), .ld 0 .x, .set 1 (.mul (.s 0) (.r 0)), .st (.r 1), .ld 2 .x,
    .set 3 (.mul (.s 0) (.r 2)), .st (.r 3), .ld 4 .x, .set 5 (.mul (.s 0) (.r 4)), .st (.r 5), .ld 6 .x, .set 7 (.mul (.s 0) (.r 6)),
    .st (.r 7), .ld 8 .x, .set 9 (.mul (.s 0) (.r 8)), .st (.r 9), .ld 10 .x, .set 11 (.mul (.s 0) (.r 10)), .st (.r 11)]
  post := [] }

end Verif.Kernel.Tables
