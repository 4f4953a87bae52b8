import Verif.SseBlas
/-
The SSE vector kernels and the specialisations of `evaluate` that call them, written by tools/gen_sse_blas.py from the text of lib/scalarsite_sse and
include/scalarsite_sse.  A load or store of a vector is written as loads or stores of its numbers in order, an operation on vectors lane by lane; prefetches
are dropped; temporaries of the code before the loop have registers of their own.  A parameter behind which a kernel both reads and writes stands in the list
of parameters twice.
-/
namespace Verif.SseBlas.Tables
open Verif.Kernel Verif.Blas

/-- `vaxpy3`, lib/scalarsite_sse/qdp_scalarsite_sse.cc:1167-1191 -/
def vaxpy3K : Kern := {
  params := [.out, .s 0, .x, .y]
  nreg := 56
  mul := 1
  sub := 0
  pre := [
  .set 0 (.s 0), .set 1 .zero, .set 2 .zero, .set 3 .zero, .set 4 (.r 0), .set 5 (.r 1), .set 6 (.r 2), .set 7 (.r 3), .set 0 (.r 4),
    .set 1 (.r 4), .set 2 (.r 4), .set 3 (.r 4)]
  body := [
  .ld 8 .x, .ld 9 .x, .ld 10 .x, .ld 11 .x, .ld 12 .y, .ld 13 .y, .ld 14 .y, .ld 15 .y, .st (.add (.mul (.r 0) (.r 8)) (.r 12)),
    .st (.add (.mul (.r 1) (.r 9)) (.r 13)), .st (.add (.mul (.r 2) (.r 10)) (.r 14)), .st (.add (.mul (.r 3) (.r 11)) (.r 15)), .ld 16 .x,
    .ld 17 .x, .ld 18 .x, .ld 19 .x, .ld 20 .y, .ld 21 .y, .ld 22 .y, .ld 23 .y, .st (.add (.mul (.r 0) (.r 16)) (.r 20)),
    .st (.add (.mul (.r 1) (.r 17)) (.r 21)), .st (.add (.mul (.r 2) (.r 18)) (.r 22)), .st (.add (.mul (.r 3) (.r 19)) (.r 23)),
    .ld 24 .x, .ld 25 .x, .ld 26 .x, .ld 27 .x, .ld 28 .y, .ld 29 .y, .ld 30 .y, .ld 31 .y, .st (.add (.mul (.r 0) (.r 24)) (.r 28)),
    .st (.add (.mul (.r 1) (.r 25)) (.r 29)), .st (.add (.mul (.r 2) (.r 26)) (.r 30)), .st (.add (.mul (.r 3) (.r 27)) (.r 31)),
    .ld 32 .x, .ld 33 .x, .ld 34 .x, .ld 35 .x, .ld 36 .y, .ld 37 .y, .ld 38 .y, .ld 39 .y, .st (.add (.mul (.r 0) (.r 32)) (.r 36)),
    .st (.add (.mul (.r 1) (.r 33)) (.r 37)), .st (.add (.mul (.r 2) (.r 34)) (.r 38)), .st (.add (.mul (.r 3) (.r 35)) (.r 39)),
    .ld 40 .x, .ld 41 .x, .ld 42 .x, .ld 43 .x, .ld 44 .y, .ld 45 .y, .ld 46 .y, .ld 47 .y, .st (.add (.mul (.r 0) (.r 40)) (.r 44)),
    .st (.add (.mul (.r 1) (.r 41)) (.r 45)), .st (.add (.mul (.r 2) (.r 42)) (.r 46)), .st (.add (.mul (.r 3) (.r 43)) (.r 47)),
    .ld 48 .x, .ld 49 .x, .ld 50 .x, .ld 51 .x, .ld 52 .y, .ld 53 .y, .ld 54 .y, .ld 55 .y, .st (.add (.mul (.r 0) (.r 48)) (.r 52)),
    .st (.add (.mul (.r 1) (.r 49)) (.r 53)), .st (.add (.mul (.r 2) (.r 50)) (.r 54)), .st (.add (.mul (.r 3) (.r 51)) (.r 55))]
  post := [] }

/-- `vaxpy3`, lib/scalarsite_sse/qdp_scalarsite_sse.cc:1167-1191 -/
def vaxpy3 : SKern := ⟨vaxpy3K, vaxpy3K, 0⟩

/-- `vaxmy3`, lib/scalarsite_sse/qdp_scalarsite_sse.cc:1194-1218 -/
def vaxmy3K : Kern := {
  params := [.out, .s 0, .x, .y]
  nreg := 56
  mul := 1
  sub := 0
  pre := [
  .set 0 (.s 0), .set 1 .zero, .set 2 .zero, .set 3 .zero, .set 4 (.r 0), .set 5 (.r 1), .set 6 (.r 2), .set 7 (.r 3), .set 0 (.r 4),
    .set 1 (.r 4), .set 2 (.r 4), .set 3 (.r 4)]
  body := [
  .ld 8 .x, .ld 9 .x, .ld 10 .x, .ld 11 .x, .ld 12 .y, .ld 13 .y, .ld 14 .y, .ld 15 .y, .st (.sub (.mul (.r 0) (.r 8)) (.r 12)),
    .st (.sub (.mul (.r 1) (.r 9)) (.r 13)), .st (.sub (.mul (.r 2) (.r 10)) (.r 14)), .st (.sub (.mul (.r 3) (.r 11)) (.r 15)), .ld 16 .x,
    .ld 17 .x, .ld 18 .x, .ld 19 .x, .ld 20 .y, .ld 21 .y, .ld 22 .y, .ld 23 .y, .st (.sub (.mul (.r 0) (.r 16)) (.r 20)),
    .st (.sub (.mul (.r 1) (.r 17)) (.r 21)), .st (.sub (.mul (.r 2) (.r 18)) (.r 22)), .st (.sub (.mul (.r 3) (.r 19)) (.r 23)),
    .ld 24 .x, .ld 25 .x, .ld 26 .x, .ld 27 .x, .ld 28 .y, .ld 29 .y, .ld 30 .y, .ld 31 .y, .st (.sub (.mul (.r 0) (.r 24)) (.r 28)),
    .st (.sub (.mul (.r 1) (.r 25)) (.r 29)), .st (.sub (.mul (.r 2) (.r 26)) (.r 30)), .st (.sub (.mul (.r 3) (.r 27)) (.r 31)),
    .ld 32 .x, .ld 33 .x, .ld 34 .x, .ld 35 .x, .ld 36 .y, .ld 37 .y, .ld 38 .y, .ld 39 .y, .st (.sub (.mul (.r 0) (.r 32)) (.r 36)),
    .st (.sub (.mul (.r 1) (.r 33)) (.r 37)), .st (.sub (.mul (.r 2) (.r 34)) (.r 38)), .st (.sub (.mul (.r 3) (.r 35)) (.r 39)),
    .ld 40 .x, .ld 41 .x, .ld 42 .x, .ld 43 .x, .ld 44 .y, .ld 45 .y, .ld 46 .y, .ld 47 .y, .st (.sub (.mul (.r 0) (.r 40)) (.r 44)),
    .st (.sub (.mul (.r 1) (.r 41)) (.r 45)), .st (.sub (.mul (.r 2) (.r 42)) (.r 46)), .st (.sub (.mul (.r 3) (.r 43)) (.r 47)),
    .ld 48 .x, .ld 49 .x, .ld 50 .x, .ld 51 .x, .ld 52 .y, .ld 53 .y, .ld 54 .y, .ld 55 .y, .st (.sub (.mul (.r 0) (.r 48)) (.r 52)),
    .st (.sub (.mul (.r 1) (.r 49)) (.r 53)), .st (.sub (.mul (.r 2) (.r 50)) (.r 54)), .st (.sub (.mul (.r 3) (.r 51)) (.r 55))]
  post := [] }

/-- `vaxmy3`, lib/scalarsite_sse/qdp_scalarsite_sse.cc:1194-1218 -/
def vaxmy3 : SKern := ⟨vaxmy3K, vaxmy3K, 0⟩

/-- `vadd`, lib/scalarsite_sse/qdp_scalarsite_sse.cc:1221-1241 -/
def vaddK : Kern := {
  params := [.out, .x, .y]
  nreg := 48
  mul := 1
  sub := 0
  pre := []
  body := [
  .ld 0 .x, .ld 1 .x, .ld 2 .x, .ld 3 .x, .ld 4 .y, .ld 5 .y, .ld 6 .y, .ld 7 .y, .st (.add (.r 0) (.r 4)), .st (.add (.r 1) (.r 5)),
    .st (.add (.r 2) (.r 6)), .st (.add (.r 3) (.r 7)), .ld 8 .x, .ld 9 .x, .ld 10 .x, .ld 11 .x, .ld 12 .y, .ld 13 .y, .ld 14 .y,
    .ld 15 .y, .st (.add (.r 8) (.r 12)), .st (.add (.r 9) (.r 13)), .st (.add (.r 10) (.r 14)), .st (.add (.r 11) (.r 15)), .ld 16 .x,
    .ld 17 .x, .ld 18 .x, .ld 19 .x, .ld 20 .y, .ld 21 .y, .ld 22 .y, .ld 23 .y, .st (.add (.r 16) (.r 20)), .st (.add (.r 17) (.r 21)),
    .st (.add (.r 18) (.r 22)), .st (.add (.r 19) (.r 23)), .ld 24 .x, .ld 25 .x, .ld 26 .x, .ld 27 .x, .ld 28 .y, .ld 29 .y, .ld 30 .y,
    .ld 31 .y, .st (.add (.r 24) (.r 28)), .st (.add (.r 25) (.r 29)), .st (.add (.r 26) (.r 30)), .st (.add (.r 27) (.r 31)), .ld 32 .x,
    .ld 33 .x, .ld 34 .x, .ld 35 .x, .ld 36 .y, .ld 37 .y, .ld 38 .y, .ld 39 .y, .st (.add (.r 32) (.r 36)), .st (.add (.r 33) (.r 37)),
    .st (.add (.r 34) (.r 38)), .st (.add (.r 35) (.r 39)), .ld 40 .x, .ld 41 .x, .ld 42 .x, .ld 43 .x, .ld 44 .y, .ld 45 .y, .ld 46 .y,
    .ld 47 .y, .st (.add (.r 40) (.r 44)), .st (.add (.r 41) (.r 45)), .st (.add (.r 42) (.r 46)), .st (.add (.r 43) (.r 47))]
  post := [] }

/-- `vadd`, lib/scalarsite_sse/qdp_scalarsite_sse.cc:1221-1241 -/
def vadd : SKern := ⟨vaddK, vaddK, 0⟩

/-- `vsub`, lib/scalarsite_sse/qdp_scalarsite_sse.cc:1244-1264 -/
def vsubK : Kern := {
  params := [.out, .x, .y]
  nreg := 48
  mul := 1
  sub := 0
  pre := []
  body := [
  .ld 0 .x, .ld 1 .x, .ld 2 .x, .ld 3 .x, .ld 4 .y, .ld 5 .y, .ld 6 .y, .ld 7 .y, .st (.sub (.r 0) (.r 4)), .st (.sub (.r 1) (.r 5)),
    .st (.sub (.r 2) (.r 6)), .st (.sub (.r 3) (.r 7)), .ld 8 .x, .ld 9 .x, .ld 10 .x, .ld 11 .x, .ld 12 .y, .ld 13 .y, .ld 14 .y,
    .ld 15 .y, .st (.sub (.r 8) (.r 12)), .st (.sub (.r 9) (.r 13)), .st (.sub (.r 10) (.r 14)), .st (.sub (.r 11) (.r 15)), .ld 16 .x,
    .ld 17 .x, .ld 18 .x, .ld 19 .x, .ld 20 .y, .ld 21 .y, .ld 22 .y, .ld 23 .y, .st (.sub (.r 16) (.r 20)), .st (.sub (.r 17) (.r 21)),
    .st (.sub (.r 18) (.r 22)), .st (.sub (.r 19) (.r 23)), .ld 24 .x, .ld 25 .x, .ld 26 .x, .ld 27 .x, .ld 28 .y, .ld 29 .y, .ld 30 .y,
    .ld 31 .y, .st (.sub (.r 24) (.r 28)), .st (.sub (.r 25) (.r 29)), .st (.sub (.r 26) (.r 30)), .st (.sub (.r 27) (.r 31)), .ld 32 .x,
    .ld 33 .x, .ld 34 .x, .ld 35 .x, .ld 36 .y, .ld 37 .y, .ld 38 .y, .ld 39 .y, .st (.sub (.r 32) (.r 36)), .st (.sub (.r 33) (.r 37)),
    .st (.sub (.r 34) (.r 38)), .st (.sub (.r 35) (.r 39)), .ld 40 .x, .ld 41 .x, .ld 42 .x, .ld 43 .x, .ld 44 .y, .ld 45 .y, .ld 46 .y,
    .ld 47 .y, .st (.sub (.r 40) (.r 44)), .st (.sub (.r 41) (.r 45)), .st (.sub (.r 42) (.r 46)), .st (.sub (.r 43) (.r 47))]
  post := [] }

/-- `vsub`, lib/scalarsite_sse/qdp_scalarsite_sse.cc:1244-1264 -/
def vsub : SKern := ⟨vsubK, vsubK, 0⟩

/-- `vscal`, lib/scalarsite_sse/qdp_scalarsite_sse.cc:1266-1290 -/
def vscalK : Kern := {
  params := [.out, .s 0, .x]
  nreg := 32
  mul := 1
  sub := 0
  pre := [
  .set 0 (.s 0), .set 1 .zero, .set 2 .zero, .set 3 .zero, .set 4 (.r 0), .set 5 (.r 1), .set 6 (.r 2), .set 7 (.r 3), .set 0 (.r 4),
    .set 1 (.r 4), .set 2 (.r 4), .set 3 (.r 4)]
  body := [
  .ld 8 .x, .ld 9 .x, .ld 10 .x, .ld 11 .x, .st (.mul (.r 0) (.r 8)), .st (.mul (.r 1) (.r 9)), .st (.mul (.r 2) (.r 10)),
    .st (.mul (.r 3) (.r 11)), .ld 12 .x, .ld 13 .x, .ld 14 .x, .ld 15 .x, .st (.mul (.r 0) (.r 12)), .st (.mul (.r 1) (.r 13)),
    .st (.mul (.r 2) (.r 14)), .st (.mul (.r 3) (.r 15)), .ld 16 .x, .ld 17 .x, .ld 18 .x, .ld 19 .x, .st (.mul (.r 0) (.r 16)),
    .st (.mul (.r 1) (.r 17)), .st (.mul (.r 2) (.r 18)), .st (.mul (.r 3) (.r 19)), .ld 20 .x, .ld 21 .x, .ld 22 .x, .ld 23 .x,
    .st (.mul (.r 0) (.r 20)), .st (.mul (.r 1) (.r 21)), .st (.mul (.r 2) (.r 22)), .st (.mul (.r 3) (.r 23)), .ld 24 .x, .ld 25 .x,
    .ld 26 .x, .ld 27 .x, .st (.mul (.r 0) (.r 24)), .st (.mul (.r 1) (.r 25)), .st (.mul (.r 2) (.r 26)), .st (.mul (.r 3) (.r 27)),
    .ld 28 .x, .ld 29 .x, .ld 30 .x, .ld 31 .x, .st (.mul (.r 0) (.r 28)), .st (.mul (.r 1) (.r 29)), .st (.mul (.r 2) (.r 30)),
    .st (.mul (.r 3) (.r 31))]
  post := [] }

/-- `vscal`, lib/scalarsite_sse/qdp_scalarsite_sse.cc:1266-1290 -/
def vscal : SKern := ⟨vscalK, vscalK, 0⟩

/-- `vaxpby3`, lib/scalarsite_sse/qdp_scalarsite_sse.cc:1293-1320 -/
def vaxpby3K : Kern := {
  params := [.out, .s 0, .x, .s 2, .y]
  nreg := 64
  mul := 1
  sub := 0
  pre := [
  .set 0 (.s 0), .set 1 .zero, .set 2 .zero, .set 3 .zero, .set 4 (.s 2), .set 5 .zero, .set 6 .zero, .set 7 .zero, .set 8 (.r 0),
    .set 9 (.r 1), .set 10 (.r 2), .set 11 (.r 3), .set 0 (.r 8), .set 1 (.r 8), .set 2 (.r 8), .set 3 (.r 8), .set 12 (.r 4),
    .set 13 (.r 5), .set 14 (.r 6), .set 15 (.r 7), .set 4 (.r 12), .set 5 (.r 12), .set 6 (.r 12), .set 7 (.r 12)]
  body := [
  .ld 16 .x, .ld 17 .x, .ld 18 .x, .ld 19 .x, .ld 20 .y, .ld 21 .y, .ld 22 .y, .ld 23 .y,
    .st (.add (.mul (.r 0) (.r 16)) (.mul (.r 4) (.r 20))), .st (.add (.mul (.r 1) (.r 17)) (.mul (.r 5) (.r 21))),
    .st (.add (.mul (.r 2) (.r 18)) (.mul (.r 6) (.r 22))), .st (.add (.mul (.r 3) (.r 19)) (.mul (.r 7) (.r 23))), .ld 24 .x, .ld 25 .x,
    .ld 26 .x, .ld 27 .x, .ld 28 .y, .ld 29 .y, .ld 30 .y, .ld 31 .y, .st (.add (.mul (.r 0) (.r 24)) (.mul (.r 4) (.r 28))),
    .st (.add (.mul (.r 1) (.r 25)) (.mul (.r 5) (.r 29))), .st (.add (.mul (.r 2) (.r 26)) (.mul (.r 6) (.r 30))),
    .st (.add (.mul (.r 3) (.r 27)) (.mul (.r 7) (.r 31))), .ld 32 .x, .ld 33 .x, .ld 34 .x, .ld 35 .x, .ld 36 .y, .ld 37 .y, .ld 38 .y,
    .ld 39 .y, .st (.add (.mul (.r 0) (.r 32)) (.mul (.r 4) (.r 36))), .st (.add (.mul (.r 1) (.r 33)) (.mul (.r 5) (.r 37))),
    .st (.add (.mul (.r 2) (.r 34)) (.mul (.r 6) (.r 38))), .st (.add (.mul (.r 3) (.r 35)) (.mul (.r 7) (.r 39))), .ld 40 .x, .ld 41 .x,
    .ld 42 .x, .ld 43 .x, .ld 44 .y, .ld 45 .y, .ld 46 .y, .ld 47 .y, .st (.add (.mul (.r 0) (.r 40)) (.mul (.r 4) (.r 44))),
    .st (.add (.mul (.r 1) (.r 41)) (.mul (.r 5) (.r 45))), .st (.add (.mul (.r 2) (.r 42)) (.mul (.r 6) (.r 46))),
    .st (.add (.mul (.r 3) (.r 43)) (.mul (.r 7) (.r 47))), .ld 48 .x, .ld 49 .x, .ld 50 .x, .ld 51 .x, .ld 52 .y, .ld 53 .y, .ld 54 .y,
    .ld 55 .y, .st (.add (.mul (.r 0) (.r 48)) (.mul (.r 4) (.r 52))), .st (.add (.mul (.r 1) (.r 49)) (.mul (.r 5) (.r 53))),
    .st (.add (.mul (.r 2) (.r 50)) (.mul (.r 6) (.r 54))), .st (.add (.mul (.r 3) (.r 51)) (.mul (.r 7) (.r 55))), .ld 56 .x, .ld 57 .x,
    .ld 58 .x, .ld 59 .x, .ld 60 .y, .ld 61 .y, .ld 62 .y, .ld 63 .y, .st (.add (.mul (.r 0) (.r 56)) (.mul (.r 4) (.r 60))),
    .st (.add (.mul (.r 1) (.r 57)) (.mul (.r 5) (.r 61))), .st (.add (.mul (.r 2) (.r 58)) (.mul (.r 6) (.r 62))),
    .st (.add (.mul (.r 3) (.r 59)) (.mul (.r 7) (.r 63)))]
  post := [] }

/-- `vaxpby3`, lib/scalarsite_sse/qdp_scalarsite_sse.cc:1293-1320 -/
def vaxpby3 : SKern := ⟨vaxpby3K, vaxpby3K, 0⟩

/-- `vaxmby3`, lib/scalarsite_sse/qdp_scalarsite_sse.cc:1323-1349 -/
def vaxmby3K : Kern := {
  params := [.out, .s 0, .x, .s 2, .y]
  nreg := 64
  mul := 1
  sub := 0
  pre := [
  .set 0 (.s 0), .set 1 .zero, .set 2 .zero, .set 3 .zero, .set 4 (.s 2), .set 5 .zero, .set 6 .zero, .set 7 .zero, .set 8 (.r 0),
    .set 9 (.r 1), .set 10 (.r 2), .set 11 (.r 3), .set 0 (.r 8), .set 1 (.r 8), .set 2 (.r 8), .set 3 (.r 8), .set 12 (.r 4),
    .set 13 (.r 5), .set 14 (.r 6), .set 15 (.r 7), .set 4 (.r 12), .set 5 (.r 12), .set 6 (.r 12), .set 7 (.r 12)]
  body := [
  .ld 16 .x, .ld 17 .x, .ld 18 .x, .ld 19 .x, .ld 20 .y, .ld 21 .y, .ld 22 .y, .ld 23 .y,
    .st (.sub (.mul (.r 0) (.r 16)) (.mul (.r 4) (.r 20))), .st (.sub (.mul (.r 1) (.r 17)) (.mul (.r 5) (.r 21))),
    .st (.sub (.mul (.r 2) (.r 18)) (.mul (.r 6) (.r 22))), .st (.sub (.mul (.r 3) (.r 19)) (.mul (.r 7) (.r 23))), .ld 24 .x, .ld 25 .x,
    .ld 26 .x, .ld 27 .x, .ld 28 .y, .ld 29 .y, .ld 30 .y, .ld 31 .y, .st (.sub (.mul (.r 0) (.r 24)) (.mul (.r 4) (.r 28))),
    .st (.sub (.mul (.r 1) (.r 25)) (.mul (.r 5) (.r 29))), .st (.sub (.mul (.r 2) (.r 26)) (.mul (.r 6) (.r 30))),
    .st (.sub (.mul (.r 3) (.r 27)) (.mul (.r 7) (.r 31))), .ld 32 .x, .ld 33 .x, .ld 34 .x, .ld 35 .x, .ld 36 .y, .ld 37 .y, .ld 38 .y,
    .ld 39 .y, .st (.sub (.mul (.r 0) (.r 32)) (.mul (.r 4) (.r 36))), .st (.sub (.mul (.r 1) (.r 33)) (.mul (.r 5) (.r 37))),
    .st (.sub (.mul (.r 2) (.r 34)) (.mul (.r 6) (.r 38))), .st (.sub (.mul (.r 3) (.r 35)) (.mul (.r 7) (.r 39))), .ld 40 .x, .ld 41 .x,
    .ld 42 .x, .ld 43 .x, .ld 44 .y, .ld 45 .y, .ld 46 .y, .ld 47 .y, .st (.sub (.mul (.r 0) (.r 40)) (.mul (.r 4) (.r 44))),
    .st (.sub (.mul (.r 1) (.r 41)) (.mul (.r 5) (.r 45))), .st (.sub (.mul (.r 2) (.r 42)) (.mul (.r 6) (.r 46))),
    .st (.sub (.mul (.r 3) (.r 43)) (.mul (.r 7) (.r 47))), .ld 48 .x, .ld 49 .x, .ld 50 .x, .ld 51 .x, .ld 52 .y, .ld 53 .y, .ld 54 .y,
    .ld 55 .y, .st (.sub (.mul (.r 0) (.r 48)) (.mul (.r 4) (.r 52))), .st (.sub (.mul (.r 1) (.r 49)) (.mul (.r 5) (.r 53))),
    .st (.sub (.mul (.r 2) (.r 50)) (.mul (.r 6) (.r 54))), .st (.sub (.mul (.r 3) (.r 51)) (.mul (.r 7) (.r 55))), .ld 56 .x, .ld 57 .x,
    .ld 58 .x, .ld 59 .x, .ld 60 .y, .ld 61 .y, .ld 62 .y, .ld 63 .y, .st (.sub (.mul (.r 0) (.r 56)) (.mul (.r 4) (.r 60))),
    .st (.sub (.mul (.r 1) (.r 57)) (.mul (.r 5) (.r 61))), .st (.sub (.mul (.r 2) (.r 58)) (.mul (.r 6) (.r 62))),
    .st (.sub (.mul (.r 3) (.r 59)) (.mul (.r 7) (.r 63)))]
  post := [] }

/-- `vaxmby3`, lib/scalarsite_sse/qdp_scalarsite_sse.cc:1323-1349 -/
def vaxmby3 : SKern := ⟨vaxmby3K, vaxmby3K, 0⟩

/-- `vaxpy4` below the limit, lib/scalarsite_sse/sse_blas_vaxpy4_double.cc:20-125 -/
def vaxpy4SmallK : Kern := {
  params := [.out, .s 0, .x, .y]
  nreg := 28
  mul := 3
  sub := 0
  pre := [
  .set 0 (.s 0), .set 1 .zero, .set 2 .zero, .set 3 .zero, .set 2 (.r 1), .set 3 (.r 0), .set 0 (.add (.r 0) (.r 2)),
    .set 1 (.add (.r 1) (.r 3))]
  body := [
  .ld 4 .y, .ld 5 .y, .ld 6 .x, .ld 7 .x, .set 8 (.mul (.r 0) (.r 6)), .set 9 (.mul (.r 1) (.r 7)), .set 10 (.add (.r 8) (.r 4)),
    .set 11 (.add (.r 9) (.r 5)), .st (.r 10), .st (.r 11), .ld 12 .y, .ld 13 .y, .ld 14 .x, .ld 15 .x, .set 16 (.mul (.r 0) (.r 14)),
    .set 17 (.mul (.r 1) (.r 15)), .set 18 (.add (.r 16) (.r 12)), .set 19 (.add (.r 17) (.r 13)), .st (.r 18), .st (.r 19), .ld 20 .y,
    .ld 21 .y, .ld 22 .x, .ld 23 .x, .set 24 (.mul (.r 0) (.r 22)), .set 25 (.mul (.r 1) (.r 23)), .set 26 (.add (.r 24) (.r 20)),
    .set 27 (.add (.r 25) (.r 21)), .st (.r 26), .st (.r 27), .ld 4 .y, .ld 5 .y, .ld 6 .x, .ld 7 .x, .set 8 (.mul (.r 0) (.r 6)),
    .set 9 (.mul (.r 1) (.r 7)), .set 10 (.add (.r 8) (.r 4)), .set 11 (.add (.r 9) (.r 5)), .st (.r 10), .st (.r 11)]
  post := [] }

/-- `vaxpy4` from the limit on, lib/scalarsite_sse/sse_blas_vaxpy4_double.cc:20-125 -/
def vaxpy4BigK : Kern := {
  params := [.out, .s 0, .x, .y]
  nreg := 28
  mul := 3
  sub := 0
  pre := [
  .set 0 (.s 0), .set 1 .zero, .set 2 .zero, .set 3 .zero, .set 2 (.r 1), .set 3 (.r 0), .set 0 (.add (.r 0) (.r 2)),
    .set 1 (.add (.r 1) (.r 3))]
  body := [
  .ld 4 .y, .ld 5 .y, .ld 6 .x, .ld 7 .x, .set 8 (.mul (.r 0) (.r 6)), .set 9 (.mul (.r 1) (.r 7)), .set 10 (.add (.r 8) (.r 4)),
    .set 11 (.add (.r 9) (.r 5)), .st (.r 10), .st (.r 11), .ld 12 .y, .ld 13 .y, .ld 14 .x, .ld 15 .x, .set 16 (.mul (.r 0) (.r 14)),
    .set 17 (.mul (.r 1) (.r 15)), .set 18 (.add (.r 16) (.r 12)), .set 19 (.add (.r 17) (.r 13)), .st (.r 18), .st (.r 19), .ld 20 .y,
    .ld 21 .y, .ld 22 .x, .ld 23 .x, .set 24 (.mul (.r 0) (.r 22)), .set 25 (.mul (.r 1) (.r 23)), .set 26 (.add (.r 24) (.r 20)),
    .set 27 (.add (.r 25) (.r 21)), .st (.r 26), .st (.r 27), .ld 4 .y, .ld 5 .y, .ld 6 .x, .ld 7 .x, .set 8 (.mul (.r 0) (.r 6)),
    .set 9 (.mul (.r 1) (.r 7)), .set 10 (.add (.r 8) (.r 4)), .set 11 (.add (.r 9) (.r 5)), .st (.r 10), .st (.r 11)]
  post := [] }

/-- `vaxpy4`, lib/scalarsite_sse/sse_blas_vaxpy4_double.cc:20-125 -/
def vaxpy4 : SKern := ⟨vaxpy4SmallK, vaxpy4BigK, 1365⟩

/-- `vaxpyz4` below the limit, lib/scalarsite_sse/sse_blas_vaxpy4_double.cc:129-239 -/
def vaxpyz4SmallK : Kern := {
  params := [.out, .s 0, .x, .y]
  nreg := 28
  mul := 3
  sub := 0
  pre := [
  .set 0 (.s 0), .set 1 .zero, .set 2 .zero, .set 3 .zero, .set 2 (.r 1), .set 3 (.r 0), .set 0 (.add (.r 0) (.r 2)),
    .set 1 (.add (.r 1) (.r 3))]
  body := [
  .ld 4 .y, .ld 5 .y, .ld 6 .x, .ld 7 .x, .set 8 (.mul (.r 0) (.r 6)), .set 9 (.mul (.r 1) (.r 7)), .set 10 (.add (.r 8) (.r 4)),
    .set 11 (.add (.r 9) (.r 5)), .st (.r 10), .st (.r 11), .ld 12 .y, .ld 13 .y, .ld 14 .x, .ld 15 .x, .set 16 (.mul (.r 0) (.r 14)),
    .set 17 (.mul (.r 1) (.r 15)), .set 18 (.add (.r 16) (.r 12)), .set 19 (.add (.r 17) (.r 13)), .st (.r 18), .st (.r 19), .ld 20 .y,
    .ld 21 .y, .ld 22 .x, .ld 23 .x, .set 24 (.mul (.r 0) (.r 22)), .set 25 (.mul (.r 1) (.r 23)), .set 26 (.add (.r 24) (.r 20)),
    .set 27 (.add (.r 25) (.r 21)), .st (.r 26), .st (.r 27), .ld 4 .y, .ld 5 .y, .ld 6 .x, .ld 7 .x, .set 8 (.mul (.r 0) (.r 6)),
    .set 9 (.mul (.r 1) (.r 7)), .set 10 (.add (.r 8) (.r 4)), .set 11 (.add (.r 9) (.r 5)), .st (.r 10), .st (.r 11)]
  post := [] }

/-- `vaxpyz4` from the limit on, lib/scalarsite_sse/sse_blas_vaxpy4_double.cc:129-239 -/
def vaxpyz4BigK : Kern := {
  params := [.out, .s 0, .x, .y]
  nreg := 28
  mul := 3
  sub := 0
  pre := [
  .set 0 (.s 0), .set 1 .zero, .set 2 .zero, .set 3 .zero, .set 2 (.r 1), .set 3 (.r 0), .set 0 (.add (.r 0) (.r 2)),
    .set 1 (.add (.r 1) (.r 3))]
  body := [
  .ld 4 .y, .ld 5 .y, .ld 6 .x, .ld 7 .x, .set 8 (.mul (.r 0) (.r 6)), .set 9 (.mul (.r 1) (.r 7)), .set 10 (.add (.r 8) (.r 4)),
    .set 11 (.add (.r 9) (.r 5)), .st (.r 10), .st (.r 11), .ld 12 .y, .ld 13 .y, .ld 14 .x, .ld 15 .x, .set 16 (.mul (.r 0) (.r 14)),
    .set 17 (.mul (.r 1) (.r 15)), .set 18 (.add (.r 16) (.r 12)), .set 19 (.add (.r 17) (.r 13)), .st (.r 18), .st (.r 19), .ld 20 .y,
    .ld 21 .y, .ld 22 .x, .ld 23 .x, .set 24 (.mul (.r 0) (.r 22)), .set 25 (.mul (.r 1) (.r 23)), .set 26 (.add (.r 24) (.r 20)),
    .set 27 (.add (.r 25) (.r 21)), .st (.r 26), .st (.r 27), .ld 4 .y, .ld 5 .y, .ld 6 .x, .ld 7 .x, .set 8 (.mul (.r 0) (.r 6)),
    .set 9 (.mul (.r 1) (.r 7)), .set 10 (.add (.r 8) (.r 4)), .set 11 (.add (.r 9) (.r 5)), .st (.r 10), .st (.r 11)]
  post := [] }

/-- `vaxpyz4`, lib/scalarsite_sse/sse_blas_vaxpy4_double.cc:129-239 -/
def vaxpyz4 : SKern := ⟨vaxpyz4SmallK, vaxpyz4BigK, 1365⟩

/-- `vaypx4`, lib/scalarsite_sse/sse_blas_vaypx4_double.cc:13-55 -/
def vaypx4K : Kern := {
  params := [.out, .s 0, .x, .y]
  nreg := 12
  mul := 12
  sub := 0
  pre := [
  .set 0 (.s 0), .set 1 .zero, .set 2 .zero, .set 3 .zero, .set 2 (.r 1), .set 3 (.r 0), .set 0 (.add (.r 0) (.r 2)),
    .set 1 (.add (.r 1) (.r 3))]
  body := [
  .ld 4 .y, .ld 5 .y, .ld 6 .x, .ld 7 .x, .set 8 (.mul (.r 0) (.r 4)), .set 9 (.mul (.r 1) (.r 5)), .set 10 (.add (.r 8) (.r 6)),
    .set 11 (.add (.r 9) (.r 7)), .st (.r 10), .st (.r 11)]
  post := [] }

/-- `vaypx4`, lib/scalarsite_sse/sse_blas_vaypx4_double.cc:13-55 -/
def vaypx4 : SKern := ⟨vaypx4K, vaypx4K, 0⟩

/-- `vaxmyz4`, lib/scalarsite_sse/sse_blas_vaxmyz4_double.cc:14-56 -/
def vaxmyz4K : Kern := {
  params := [.out, .s 0, .x, .y]
  nreg := 12
  mul := 12
  sub := 0
  pre := [
  .set 0 (.s 0), .set 1 .zero, .set 2 .zero, .set 3 .zero, .set 2 (.r 1), .set 3 (.r 0), .set 0 (.add (.r 0) (.r 2)),
    .set 1 (.add (.r 1) (.r 3))]
  body := [
  .ld 4 .y, .ld 5 .y, .ld 6 .x, .ld 7 .x, .set 8 (.mul (.r 0) (.r 6)), .set 9 (.mul (.r 1) (.r 7)), .set 10 (.sub (.r 8) (.r 4)),
    .set 11 (.sub (.r 9) (.r 5)), .st (.r 10), .st (.r 11)]
  post := [] }

/-- `vaxmyz4`, lib/scalarsite_sse/sse_blas_vaxmyz4_double.cc:14-56 -/
def vaxmyz4 : SKern := ⟨vaxmyz4K, vaxmyz4K, 0⟩

/-- `vaxmy4`, lib/scalarsite_sse/sse_blas_vaxmyz4_double.cc:59-170 -/
def vaxmy4K : Kern := {
  params := [.out, .s 0, .x, .y]
  nreg := 28
  mul := 1
  sub := 0
  pre := [
  .set 0 (.s 0), .set 1 .zero, .set 2 .zero, .set 3 .zero, .set 2 (.r 1), .set 3 (.r 0), .set 0 (.add (.r 0) (.r 2)),
    .set 1 (.add (.r 1) (.r 3))]
  body := [
  .ld 4 .y, .ld 5 .y, .ld 6 .x, .ld 7 .x, .set 8 (.mul (.r 0) (.r 6)), .set 9 (.mul (.r 1) (.r 7)), .set 10 (.sub (.r 8) (.r 4)),
    .set 11 (.sub (.r 9) (.r 5)), .st (.r 10), .st (.r 11), .ld 12 .y, .ld 13 .y, .ld 14 .x, .ld 15 .x, .set 16 (.mul (.r 0) (.r 14)),
    .set 17 (.mul (.r 1) (.r 15)), .set 18 (.sub (.r 16) (.r 12)), .set 19 (.sub (.r 17) (.r 13)), .st (.r 18), .st (.r 19), .ld 20 .y,
    .ld 21 .y, .ld 22 .x, .ld 23 .x, .set 24 (.mul (.r 0) (.r 22)), .set 25 (.mul (.r 1) (.r 23)), .set 26 (.sub (.r 24) (.r 20)),
    .set 27 (.sub (.r 25) (.r 21)), .st (.r 26), .st (.r 27), .ld 4 .y, .ld 5 .y, .ld 6 .x, .ld 7 .x, .set 8 (.mul (.r 0) (.r 6)),
    .set 9 (.mul (.r 1) (.r 7)), .set 10 (.sub (.r 8) (.r 4)), .set 11 (.sub (.r 9) (.r 5)), .st (.r 10), .st (.r 11), .ld 12 .y,
    .ld 13 .y, .ld 14 .x, .ld 15 .x, .set 16 (.mul (.r 0) (.r 14)), .set 17 (.mul (.r 1) (.r 15)), .set 18 (.sub (.r 16) (.r 12)),
    .set 19 (.sub (.r 17) (.r 13)), .st (.r 18), .st (.r 19), .ld 20 .y, .ld 21 .y, .ld 22 .x, .ld 23 .x, .set 24 (.mul (.r 0) (.r 22)),
    .set 25 (.mul (.r 1) (.r 23)), .set 26 (.sub (.r 24) (.r 20)), .set 27 (.sub (.r 25) (.r 21)), .st (.r 26), .st (.r 27), .ld 4 .y,
    .ld 5 .y, .ld 6 .x, .ld 7 .x, .set 8 (.mul (.r 0) (.r 6)), .set 9 (.mul (.r 1) (.r 7)), .set 10 (.sub (.r 8) (.r 4)),
    .set 11 (.sub (.r 9) (.r 5)), .st (.r 10), .st (.r 11), .ld 12 .y, .ld 13 .y, .ld 14 .x, .ld 15 .x, .set 16 (.mul (.r 0) (.r 14)),
    .set 17 (.mul (.r 1) (.r 15)), .set 18 (.sub (.r 16) (.r 12)), .set 19 (.sub (.r 17) (.r 13)), .st (.r 18), .st (.r 19), .ld 20 .y,
    .ld 21 .y, .ld 22 .x, .ld 23 .x, .set 24 (.mul (.r 0) (.r 22)), .set 25 (.mul (.r 1) (.r 23)), .set 26 (.sub (.r 24) (.r 20)),
    .set 27 (.sub (.r 25) (.r 21)), .st (.r 26), .st (.r 27), .ld 4 .y, .ld 5 .y, .ld 6 .x, .ld 7 .x, .set 8 (.mul (.r 0) (.r 6)),
    .set 9 (.mul (.r 1) (.r 7)), .set 10 (.sub (.r 8) (.r 4)), .set 11 (.sub (.r 9) (.r 5)), .st (.r 10), .st (.r 11), .ld 12 .y,
    .ld 13 .y, .ld 14 .x, .ld 15 .x, .set 16 (.mul (.r 0) (.r 14)), .set 17 (.mul (.r 1) (.r 15)), .set 18 (.sub (.r 16) (.r 12)),
    .set 19 (.sub (.r 17) (.r 13)), .st (.r 18), .st (.r 19), .ld 20 .y, .ld 21 .y, .ld 22 .x, .ld 23 .x, .set 24 (.mul (.r 0) (.r 22)),
    .set 25 (.mul (.r 1) (.r 23)), .set 26 (.sub (.r 24) (.r 20)), .set 27 (.sub (.r 25) (.r 21)), .st (.r 26), .st (.r 27)]
  post := [] }

/-- `vaxmy4`, lib/scalarsite_sse/sse_blas_vaxmyz4_double.cc:59-170 -/
def vaxmy4 : SKern := ⟨vaxmy4K, vaxmy4K, 0⟩

/-- `vaxpbyz4` below the limit, lib/scalarsite_sse/sse_blas_vaxpbyz4_double.cc:20-138 -/
def vaxpbyz4SmallK : Kern := {
  params := [.out, .s 0, .x, .s 2, .y]
  nreg := 32
  mul := 3
  sub := 0
  pre := [
  .set 0 (.s 0), .set 1 .zero, .set 2 (.s 2), .set 3 .zero, .set 4 .zero, .set 5 .zero, .set 4 (.r 1), .set 5 (.r 0),
    .set 0 (.add (.r 0) (.r 4)), .set 1 (.add (.r 1) (.r 5)), .set 6 .zero, .set 7 .zero, .set 6 (.r 3), .set 7 (.r 2),
    .set 2 (.add (.r 2) (.r 6)), .set 3 (.add (.r 3) (.r 7))]
  body := [
  .ld 8 .y, .ld 9 .y, .ld 10 .x, .ld 11 .x, .set 12 (.mul (.r 0) (.r 10)), .set 13 (.mul (.r 1) (.r 11)), .set 14 (.mul (.r 2) (.r 8)),
    .set 15 (.mul (.r 3) (.r 9)), .set 12 (.add (.r 12) (.r 14)), .set 13 (.add (.r 13) (.r 15)), .st (.r 12), .st (.r 13), .ld 16 .y,
    .ld 17 .y, .ld 18 .x, .ld 19 .x, .set 20 (.mul (.r 0) (.r 18)), .set 21 (.mul (.r 1) (.r 19)), .set 22 (.mul (.r 2) (.r 16)),
    .set 23 (.mul (.r 3) (.r 17)), .set 20 (.add (.r 20) (.r 22)), .set 21 (.add (.r 21) (.r 23)), .st (.r 20), .st (.r 21), .ld 24 .y,
    .ld 25 .y, .ld 26 .x, .ld 27 .x, .set 28 (.mul (.r 0) (.r 26)), .set 29 (.mul (.r 1) (.r 27)), .set 30 (.mul (.r 2) (.r 24)),
    .set 31 (.mul (.r 3) (.r 25)), .set 28 (.add (.r 28) (.r 30)), .set 29 (.add (.r 29) (.r 31)), .st (.r 28), .st (.r 29), .ld 8 .y,
    .ld 9 .y, .ld 10 .x, .ld 11 .x, .set 12 (.mul (.r 0) (.r 10)), .set 13 (.mul (.r 1) (.r 11)), .set 14 (.mul (.r 2) (.r 8)),
    .set 15 (.mul (.r 3) (.r 9)), .set 12 (.add (.r 12) (.r 14)), .set 13 (.add (.r 13) (.r 15)), .st (.r 12), .st (.r 13)]
  post := [] }

/-- `vaxpbyz4` from the limit on, lib/scalarsite_sse/sse_blas_vaxpbyz4_double.cc:20-138 -/
def vaxpbyz4BigK : Kern := {
  params := [.out, .s 0, .x, .s 2, .y]
  nreg := 32
  mul := 3
  sub := 0
  pre := [
  .set 0 (.s 0), .set 1 .zero, .set 2 (.s 2), .set 3 .zero, .set 4 .zero, .set 5 .zero, .set 4 (.r 1), .set 5 (.r 0),
    .set 0 (.add (.r 0) (.r 4)), .set 1 (.add (.r 1) (.r 5)), .set 6 .zero, .set 7 .zero, .set 6 (.r 3), .set 7 (.r 2),
    .set 2 (.add (.r 2) (.r 6)), .set 3 (.add (.r 3) (.r 7))]
  body := [
  .ld 8 .y, .ld 9 .y, .ld 10 .x, .ld 11 .x, .set 14 (.mul (.r 2) (.r 8)), .set 15 (.mul (.r 3) (.r 9)), .set 12 (.mul (.r 0) (.r 10)),
    .set 13 (.mul (.r 1) (.r 11)), .set 12 (.add (.r 12) (.r 14)), .set 13 (.add (.r 13) (.r 15)), .st (.r 12), .st (.r 13), .ld 16 .y,
    .ld 17 .y, .ld 18 .x, .ld 19 .x, .set 22 (.mul (.r 2) (.r 16)), .set 23 (.mul (.r 3) (.r 17)), .set 20 (.mul (.r 0) (.r 18)),
    .set 21 (.mul (.r 1) (.r 19)), .set 20 (.add (.r 20) (.r 22)), .set 21 (.add (.r 21) (.r 23)), .st (.r 20), .st (.r 21), .ld 24 .y,
    .ld 25 .y, .ld 26 .x, .ld 27 .x, .set 30 (.mul (.r 2) (.r 24)), .set 31 (.mul (.r 3) (.r 25)), .set 28 (.mul (.r 0) (.r 26)),
    .set 29 (.mul (.r 1) (.r 27)), .set 28 (.add (.r 28) (.r 30)), .set 29 (.add (.r 29) (.r 31)), .st (.r 28), .st (.r 29), .ld 8 .y,
    .ld 9 .y, .ld 10 .x, .ld 11 .x, .set 14 (.mul (.r 2) (.r 8)), .set 15 (.mul (.r 3) (.r 9)), .set 12 (.mul (.r 0) (.r 10)),
    .set 13 (.mul (.r 1) (.r 11)), .set 12 (.add (.r 12) (.r 14)), .set 13 (.add (.r 13) (.r 15)), .st (.r 12), .st (.r 13)]
  post := [] }

/-- `vaxpbyz4`, lib/scalarsite_sse/sse_blas_vaxpbyz4_double.cc:20-138 -/
def vaxpbyz4 : SKern := ⟨vaxpbyz4SmallK, vaxpbyz4BigK, 1365⟩

/-- `vaxpby4` below the limit, lib/scalarsite_sse/sse_blas_vaxpbyz4_double.cc:142-329 -/
def vaxpby4SmallK : Kern := {
  params := [.out, .s 0, .x, .s 2, .y]
  nreg := 32
  mul := 3
  sub := 0
  pre := [
  .set 0 (.s 0), .set 1 .zero, .set 2 (.s 2), .set 3 .zero, .set 4 .zero, .set 5 .zero, .set 4 (.r 1), .set 5 (.r 0),
    .set 0 (.add (.r 0) (.r 4)), .set 1 (.add (.r 1) (.r 5)), .set 6 .zero, .set 7 .zero, .set 6 (.r 3), .set 7 (.r 2),
    .set 2 (.add (.r 2) (.r 6)), .set 3 (.add (.r 3) (.r 7))]
  body := [
  .ld 8 .y, .ld 9 .y, .ld 10 .x, .ld 11 .x, .set 12 (.mul (.r 2) (.r 8)), .set 13 (.mul (.r 3) (.r 9)), .set 14 (.mul (.r 0) (.r 10)),
    .set 15 (.mul (.r 1) (.r 11)), .set 14 (.add (.r 14) (.r 12)), .set 15 (.add (.r 15) (.r 13)), .st (.r 14), .st (.r 15), .ld 16 .y,
    .ld 17 .y, .ld 18 .x, .ld 19 .x, .set 20 (.mul (.r 2) (.r 16)), .set 21 (.mul (.r 3) (.r 17)), .set 22 (.mul (.r 0) (.r 18)),
    .set 23 (.mul (.r 1) (.r 19)), .set 22 (.add (.r 22) (.r 20)), .set 23 (.add (.r 23) (.r 21)), .st (.r 22), .st (.r 23), .ld 24 .y,
    .ld 25 .y, .ld 26 .x, .ld 27 .x, .set 28 (.mul (.r 2) (.r 24)), .set 29 (.mul (.r 3) (.r 25)), .set 30 (.mul (.r 0) (.r 26)),
    .set 31 (.mul (.r 1) (.r 27)), .set 30 (.add (.r 30) (.r 28)), .set 31 (.add (.r 31) (.r 29)), .st (.r 30), .st (.r 31), .ld 8 .y,
    .ld 9 .y, .ld 10 .x, .ld 11 .x, .set 14 (.mul (.r 0) (.r 10)), .set 15 (.mul (.r 1) (.r 11)), .set 12 (.mul (.r 2) (.r 8)),
    .set 13 (.mul (.r 3) (.r 9)), .set 14 (.add (.r 14) (.r 12)), .set 15 (.add (.r 15) (.r 13)), .st (.r 14), .st (.r 15)]
  post := [] }

/-- `vaxpby4` from the limit on, lib/scalarsite_sse/sse_blas_vaxpbyz4_double.cc:142-329 -/
def vaxpby4BigK : Kern := {
  params := [.out, .s 0, .x, .s 2, .y]
  nreg := 32
  mul := 3
  sub := 0
  pre := [
  .set 0 (.s 0), .set 1 .zero, .set 2 (.s 2), .set 3 .zero, .set 4 .zero, .set 5 .zero, .set 4 (.r 1), .set 5 (.r 0),
    .set 0 (.add (.r 0) (.r 4)), .set 1 (.add (.r 1) (.r 5)), .set 6 .zero, .set 7 .zero, .set 6 (.r 3), .set 7 (.r 2),
    .set 2 (.add (.r 2) (.r 6)), .set 3 (.add (.r 3) (.r 7))]
  body := [
  .ld 8 .y, .ld 9 .y, .ld 10 .x, .ld 11 .x, .set 14 (.mul (.r 0) (.r 10)), .set 15 (.mul (.r 1) (.r 11)), .set 12 (.mul (.r 2) (.r 8)),
    .set 13 (.mul (.r 3) (.r 9)), .set 14 (.add (.r 14) (.r 12)), .set 15 (.add (.r 15) (.r 13)), .st (.r 14), .st (.r 15), .ld 16 .y,
    .ld 17 .y, .ld 18 .x, .ld 19 .x, .set 22 (.mul (.r 0) (.r 18)), .set 23 (.mul (.r 1) (.r 19)), .set 20 (.mul (.r 2) (.r 16)),
    .set 21 (.mul (.r 3) (.r 17)), .set 22 (.add (.r 22) (.r 20)), .set 23 (.add (.r 23) (.r 21)), .st (.r 22), .st (.r 23), .ld 24 .y,
    .ld 25 .y, .ld 26 .x, .ld 27 .x, .set 30 (.mul (.r 0) (.r 26)), .set 31 (.mul (.r 1) (.r 27)), .set 28 (.mul (.r 2) (.r 24)),
    .set 29 (.mul (.r 3) (.r 25)), .set 30 (.add (.r 30) (.r 28)), .set 31 (.add (.r 31) (.r 29)), .st (.r 30), .st (.r 31), .ld 8 .y,
    .ld 9 .y, .ld 10 .x, .ld 11 .x, .set 14 (.mul (.r 0) (.r 10)), .set 15 (.mul (.r 1) (.r 11)), .set 12 (.mul (.r 2) (.r 8)),
    .set 13 (.mul (.r 3) (.r 9)), .set 14 (.add (.r 14) (.r 12)), .set 15 (.add (.r 15) (.r 13)), .st (.r 14), .st (.r 15)]
  post := [] }

/-- `vaxpby4`, lib/scalarsite_sse/sse_blas_vaxpbyz4_double.cc:142-329 -/
def vaxpby4 : SKern := ⟨vaxpby4SmallK, vaxpby4BigK, 1365⟩

/-- `vaxmbyz4` below the limit, lib/scalarsite_sse/sse_blas_vaxmbyz4_double.cc:19-145 -/
def vaxmbyz4SmallK : Kern := {
  params := [.out, .s 0, .x, .s 2, .y]
  nreg := 32
  mul := 3
  sub := 0
  pre := [
  .set 0 (.s 0), .set 1 .zero, .set 2 (.s 2), .set 3 .zero, .set 4 .zero, .set 5 .zero, .set 4 (.r 1), .set 5 (.r 0),
    .set 0 (.add (.r 0) (.r 4)), .set 1 (.add (.r 1) (.r 5)), .set 6 .zero, .set 7 .zero, .set 6 (.r 3), .set 7 (.r 2),
    .set 2 (.add (.r 2) (.r 6)), .set 3 (.add (.r 3) (.r 7))]
  body := [
  .ld 8 .y, .ld 9 .y, .ld 10 .x, .ld 11 .x, .set 12 (.mul (.r 0) (.r 10)), .set 13 (.mul (.r 1) (.r 11)), .set 14 (.mul (.r 2) (.r 8)),
    .set 15 (.mul (.r 3) (.r 9)), .set 12 (.sub (.r 12) (.r 14)), .set 13 (.sub (.r 13) (.r 15)), .st (.r 12), .st (.r 13), .ld 16 .y,
    .ld 17 .y, .ld 18 .x, .ld 19 .x, .set 20 (.mul (.r 0) (.r 18)), .set 21 (.mul (.r 1) (.r 19)), .set 22 (.mul (.r 2) (.r 16)),
    .set 23 (.mul (.r 3) (.r 17)), .set 20 (.sub (.r 20) (.r 22)), .set 21 (.sub (.r 21) (.r 23)), .st (.r 20), .st (.r 21), .ld 24 .y,
    .ld 25 .y, .ld 26 .x, .ld 27 .x, .set 28 (.mul (.r 0) (.r 26)), .set 29 (.mul (.r 1) (.r 27)), .set 30 (.mul (.r 2) (.r 24)),
    .set 31 (.mul (.r 3) (.r 25)), .set 28 (.sub (.r 28) (.r 30)), .set 29 (.sub (.r 29) (.r 31)), .st (.r 28), .st (.r 29), .ld 8 .y,
    .ld 9 .y, .ld 10 .x, .ld 11 .x, .set 12 (.mul (.r 0) (.r 10)), .set 13 (.mul (.r 1) (.r 11)), .set 14 (.mul (.r 2) (.r 8)),
    .set 15 (.mul (.r 3) (.r 9)), .set 12 (.sub (.r 12) (.r 14)), .set 13 (.sub (.r 13) (.r 15)), .st (.r 12), .st (.r 13)]
  post := [] }

/-- `vaxmbyz4` from the limit on, lib/scalarsite_sse/sse_blas_vaxmbyz4_double.cc:19-145 -/
def vaxmbyz4BigK : Kern := {
  params := [.out, .s 0, .x, .s 2, .y]
  nreg := 32
  mul := 3
  sub := 0
  pre := [
  .set 0 (.s 0), .set 1 .zero, .set 2 (.s 2), .set 3 .zero, .set 4 .zero, .set 5 .zero, .set 4 (.r 1), .set 5 (.r 0),
    .set 0 (.add (.r 0) (.r 4)), .set 1 (.add (.r 1) (.r 5)), .set 6 .zero, .set 7 .zero, .set 6 (.r 3), .set 7 (.r 2),
    .set 2 (.add (.r 2) (.r 6)), .set 3 (.add (.r 3) (.r 7))]
  body := [
  .ld 8 .y, .ld 9 .y, .ld 10 .x, .ld 11 .x, .set 12 (.mul (.r 0) (.r 10)), .set 13 (.mul (.r 1) (.r 11)), .set 14 (.mul (.r 2) (.r 8)),
    .set 15 (.mul (.r 3) (.r 9)), .set 12 (.sub (.r 12) (.r 14)), .set 13 (.sub (.r 13) (.r 15)), .st (.r 12), .st (.r 13), .ld 16 .y,
    .ld 17 .y, .ld 18 .x, .ld 19 .x, .set 20 (.mul (.r 0) (.r 18)), .set 21 (.mul (.r 1) (.r 19)), .set 22 (.mul (.r 2) (.r 16)),
    .set 23 (.mul (.r 3) (.r 17)), .set 20 (.sub (.r 20) (.r 22)), .set 21 (.sub (.r 21) (.r 23)), .st (.r 20), .st (.r 21), .ld 24 .y,
    .ld 25 .y, .ld 26 .x, .ld 27 .x, .set 28 (.mul (.r 0) (.r 26)), .set 29 (.mul (.r 1) (.r 27)), .set 30 (.mul (.r 2) (.r 24)),
    .set 31 (.mul (.r 3) (.r 25)), .set 28 (.sub (.r 28) (.r 30)), .set 29 (.sub (.r 29) (.r 31)), .st (.r 28), .st (.r 29), .ld 8 .y,
    .ld 9 .y, .ld 10 .x, .ld 11 .x, .set 12 (.mul (.r 0) (.r 10)), .set 13 (.mul (.r 1) (.r 11)), .set 14 (.mul (.r 2) (.r 8)),
    .set 15 (.mul (.r 3) (.r 9)), .set 12 (.sub (.r 12) (.r 14)), .set 13 (.sub (.r 13) (.r 15)), .st (.r 12), .st (.r 13)]
  post := [] }

/-- `vaxmbyz4`, lib/scalarsite_sse/sse_blas_vaxmbyz4_double.cc:19-145 -/
def vaxmbyz4 : SKern := ⟨vaxmbyz4SmallK, vaxmbyz4BigK, 1365⟩

/-- `vaxmby4` below the limit, lib/scalarsite_sse/sse_blas_vaxmbyz4_double.cc:147-268 -/
def vaxmby4SmallK : Kern := {
  params := [.out, .s 0, .x, .s 2, .y]
  nreg := 32
  mul := 3
  sub := 0
  pre := [
  .set 0 (.s 0), .set 1 .zero, .set 2 (.s 2), .set 3 .zero, .set 4 .zero, .set 5 .zero, .set 4 (.r 1), .set 5 (.r 0),
    .set 0 (.add (.r 0) (.r 4)), .set 1 (.add (.r 1) (.r 5)), .set 6 .zero, .set 7 .zero, .set 6 (.r 3), .set 7 (.r 2),
    .set 2 (.add (.r 2) (.r 6)), .set 3 (.add (.r 3) (.r 7))]
  body := [
  .ld 8 .y, .ld 9 .y, .ld 10 .x, .ld 11 .x, .set 12 (.mul (.r 0) (.r 10)), .set 13 (.mul (.r 1) (.r 11)), .set 14 (.mul (.r 2) (.r 8)),
    .set 15 (.mul (.r 3) (.r 9)), .set 12 (.sub (.r 12) (.r 14)), .set 13 (.sub (.r 13) (.r 15)), .st (.r 12), .st (.r 13), .ld 16 .y,
    .ld 17 .y, .ld 18 .x, .ld 19 .x, .set 20 (.mul (.r 0) (.r 18)), .set 21 (.mul (.r 1) (.r 19)), .set 22 (.mul (.r 2) (.r 16)),
    .set 23 (.mul (.r 3) (.r 17)), .set 20 (.sub (.r 20) (.r 22)), .set 21 (.sub (.r 21) (.r 23)), .st (.r 20), .st (.r 21), .ld 24 .y,
    .ld 25 .y, .ld 26 .x, .ld 27 .x, .set 28 (.mul (.r 0) (.r 26)), .set 29 (.mul (.r 1) (.r 27)), .set 30 (.mul (.r 2) (.r 24)),
    .set 31 (.mul (.r 3) (.r 25)), .set 28 (.sub (.r 28) (.r 30)), .set 29 (.sub (.r 29) (.r 31)), .st (.r 28), .st (.r 29), .ld 8 .y,
    .ld 9 .y, .ld 10 .x, .ld 11 .x, .set 12 (.mul (.r 0) (.r 10)), .set 13 (.mul (.r 1) (.r 11)), .set 14 (.mul (.r 2) (.r 8)),
    .set 15 (.mul (.r 3) (.r 9)), .set 12 (.sub (.r 12) (.r 14)), .set 13 (.sub (.r 13) (.r 15)), .st (.r 12), .st (.r 13)]
  post := [] }

/-- `vaxmby4` from the limit on, lib/scalarsite_sse/sse_blas_vaxmbyz4_double.cc:147-268 -/
def vaxmby4BigK : Kern := {
  params := [.out, .s 0, .x, .s 2, .y]
  nreg := 32
  mul := 3
  sub := 0
  pre := [
  .set 0 (.s 0), .set 1 .zero, .set 2 (.s 2), .set 3 .zero, .set 4 .zero, .set 5 .zero, .set 4 (.r 1), .set 5 (.r 0),
    .set 0 (.add (.r 0) (.r 4)), .set 1 (.add (.r 1) (.r 5)), .set 6 .zero, .set 7 .zero, .set 6 (.r 3), .set 7 (.r 2),
    .set 2 (.add (.r 2) (.r 6)), .set 3 (.add (.r 3) (.r 7))]
  body := [
  .ld 8 .y, .ld 9 .y, .ld 10 .x, .ld 11 .x, .set 12 (.mul (.r 0) (.r 10)), .set 13 (.mul (.r 1) (.r 11)), .set 14 (.mul (.r 2) (.r 8)),
    .set 15 (.mul (.r 3) (.r 9)), .set 12 (.sub (.r 12) (.r 14)), .set 13 (.sub (.r 13) (.r 15)), .st (.r 12), .st (.r 13), .ld 16 .y,
    .ld 17 .y, .ld 18 .x, .ld 19 .x, .set 20 (.mul (.r 0) (.r 18)), .set 21 (.mul (.r 1) (.r 19)), .set 22 (.mul (.r 2) (.r 16)),
    .set 23 (.mul (.r 3) (.r 17)), .set 20 (.sub (.r 20) (.r 22)), .set 21 (.sub (.r 21) (.r 23)), .st (.r 20), .st (.r 21), .ld 24 .y,
    .ld 25 .y, .ld 26 .x, .ld 27 .x, .set 28 (.mul (.r 0) (.r 26)), .set 29 (.mul (.r 1) (.r 27)), .set 30 (.mul (.r 2) (.r 24)),
    .set 31 (.mul (.r 3) (.r 25)), .set 28 (.sub (.r 28) (.r 30)), .set 29 (.sub (.r 29) (.r 31)), .st (.r 28), .st (.r 29), .ld 8 .y,
    .ld 9 .y, .ld 10 .x, .ld 11 .x, .set 12 (.mul (.r 0) (.r 10)), .set 13 (.mul (.r 1) (.r 11)), .set 14 (.mul (.r 2) (.r 8)),
    .set 15 (.mul (.r 3) (.r 9)), .set 12 (.sub (.r 12) (.r 14)), .set 13 (.sub (.r 13) (.r 15)), .st (.r 12), .st (.r 13)]
  post := [] }

/-- `vaxmby4`, lib/scalarsite_sse/sse_blas_vaxmbyz4_double.cc:147-268 -/
def vaxmby4 : SKern := ⟨vaxmby4SmallK, vaxmby4BigK, 1365⟩

/-- `vscal4`, lib/scalarsite_sse/sse_blas_vscal4_double.cc:14-109 -/
def vscal4K : Kern := {
  params := [.out, .s 0, .x]
  nreg := 28
  mul := 1
  sub := 0
  pre := [
  .set 0 (.s 0), .set 1 .zero, .set 2 .zero, .set 3 .zero, .set 2 (.r 1), .set 3 (.r 0), .set 0 (.add (.r 0) (.r 2)),
    .set 1 (.add (.r 1) (.r 3))]
  body := [
  .ld 4 .x, .ld 5 .x, .set 6 (.mul (.r 0) (.r 4)), .set 7 (.mul (.r 1) (.r 5)), .ld 8 .x, .ld 9 .x, .set 10 (.mul (.r 0) (.r 8)),
    .set 11 (.mul (.r 1) (.r 9)), .ld 12 .x, .ld 13 .x, .set 14 (.mul (.r 0) (.r 12)), .set 15 (.mul (.r 1) (.r 13)), .ld 16 .x, .ld 17 .x,
    .set 18 (.mul (.r 0) (.r 16)), .set 19 (.mul (.r 1) (.r 17)), .ld 20 .x, .ld 21 .x, .set 22 (.mul (.r 0) (.r 20)),
    .set 23 (.mul (.r 1) (.r 21)), .ld 24 .x, .ld 25 .x, .set 26 (.mul (.r 0) (.r 24)), .set 27 (.mul (.r 1) (.r 25)), .st (.r 6),
    .st (.r 7), .st (.r 10), .st (.r 11), .st (.r 14), .st (.r 15), .st (.r 18), .st (.r 19), .st (.r 22), .st (.r 23), .st (.r 26),
    .st (.r 27), .ld 4 .x, .ld 5 .x, .set 6 (.mul (.r 0) (.r 4)), .set 7 (.mul (.r 1) (.r 5)), .ld 8 .x, .ld 9 .x,
    .set 10 (.mul (.r 0) (.r 8)), .set 11 (.mul (.r 1) (.r 9)), .ld 12 .x, .ld 13 .x, .set 14 (.mul (.r 0) (.r 12)),
    .set 15 (.mul (.r 1) (.r 13)), .ld 16 .x, .ld 17 .x, .set 18 (.mul (.r 0) (.r 16)), .set 19 (.mul (.r 1) (.r 17)), .ld 20 .x,
    .ld 21 .x, .set 22 (.mul (.r 0) (.r 20)), .set 23 (.mul (.r 1) (.r 21)), .ld 24 .x, .ld 25 .x, .set 26 (.mul (.r 0) (.r 24)),
    .set 27 (.mul (.r 1) (.r 25)), .st (.r 6), .st (.r 7), .st (.r 10), .st (.r 11), .st (.r 14), .st (.r 15), .st (.r 18), .st (.r 19),
    .st (.r 22), .st (.r 23), .st (.r 26), .st (.r 27)]
  post := [] }

/-- `vscal4`, lib/scalarsite_sse/sse_blas_vscal4_double.cc:14-109 -/
def vscal4 : SKern := ⟨vscal4K, vscal4K, 0⟩

/-- include/scalarsite_sse/qdp_scalarsite_sse_blas.h:68-129; user functions qdp_scalarsite_sse_blas_wrapper.h:25-42, 64-91 -/
def s00 : SEntry := {
  op := .addAssign
  rhs := (.bin .mul .scal .vec)
  ordered := ⟨vaxpy3, [.dest, .sc [.l], .at [.r], .dest]⟩
  same := none
  unordered := ⟨vaxpy3, [.dest, .sc [.l], .at [.r], .dest]⟩
  threaded := true }

/-- include/scalarsite_sse/qdp_scalarsite_sse_blas.h:134-192; user functions qdp_scalarsite_sse_blas_wrapper.h:25-42, 64-91 -/
def s01 : SEntry := {
  op := .subtractAssign
  rhs := (.bin .mul .scal .vec)
  ordered := ⟨vaxpy3, [.dest, .neg [.l], .at [.r], .dest]⟩
  same := none
  unordered := ⟨vaxpy3, [.dest, .neg [.l], .at [.r], .dest]⟩
  threaded := true }

/-- include/scalarsite_sse/qdp_scalarsite_sse_blas.h:197-274; user functions qdp_scalarsite_sse_blas_wrapper.h:25-42, 115-132 -/
def s02 : SEntry := {
  op := .assign
  rhs := (.bin .add (.bin .mul .scal .vec) .vec)
  ordered := ⟨vaxpy3, [.dest, .sc [.l, .l], .at [.l, .r], .at [.r]]⟩
  same := none
  unordered := ⟨vaxpy3, [.dest, .sc [.l, .l], .at [.l, .r], .at [.r]]⟩
  threaded := true }

/-- include/scalarsite_sse/qdp_scalarsite_sse_blas.h:279-357; user functions qdp_scalarsite_sse_blas_wrapper.h:25-42, 115-132 -/
def s03 : SEntry := {
  op := .assign
  rhs := (.bin .add .vec (.bin .mul .scal .vec))
  ordered := ⟨vaxpy3, [.dest, .sc [.r, .l], .at [.r, .r], .at [.l]]⟩
  same := none
  unordered := ⟨vaxpy3, [.dest, .sc [.r, .l], .at [.r, .r], .at [.l]]⟩
  threaded := true }

/-- include/scalarsite_sse/qdp_scalarsite_sse_blas.h:362-438; user functions qdp_scalarsite_sse_blas_wrapper.h:25-42, 115-132 -/
def s04 : SEntry := {
  op := .assign
  rhs := (.bin .sub (.bin .mul .scal .vec) .vec)
  ordered := ⟨vaxmy3, [.dest, .sc [.l, .l], .at [.l, .r], .at [.r]]⟩
  same := none
  unordered := ⟨vaxmy3, [.dest, .sc [.l, .l], .at [.l, .r], .at [.r]]⟩
  threaded := true }

/-- include/scalarsite_sse/qdp_scalarsite_sse_blas.h:442-514; user functions qdp_scalarsite_sse_blas_wrapper.h:25-42, 115-132 -/
def s05 : SEntry := {
  op := .assign
  rhs := (.bin .sub .vec (.bin .mul .scal .vec))
  ordered := ⟨vaxpy3, [.dest, .neg [.r, .l], .at [.r, .r], .at [.l]]⟩
  same := none
  unordered := ⟨vaxpy3, [.dest, .neg [.r, .l], .at [.r, .r], .at [.l]]⟩
  threaded := true }

/-- include/scalarsite_sse/qdp_scalarsite_sse_blas.h:519-575; user functions qdp_scalarsite_sse_blas_wrapper.h:25-42, 64-91 -/
def s06 : SEntry := {
  op := .addAssign
  rhs := (.bin .mul .vec .scal)
  ordered := ⟨vaxpy3, [.dest, .sc [.r], .at [.l], .dest]⟩
  same := none
  unordered := ⟨vaxpy3, [.dest, .sc [.r], .at [.l], .dest]⟩
  threaded := true }

/-- include/scalarsite_sse/qdp_scalarsite_sse_blas.h:581-639; user functions qdp_scalarsite_sse_blas_wrapper.h:25-42, 64-91 -/
def s07 : SEntry := {
  op := .subtractAssign
  rhs := (.bin .mul .vec .scal)
  ordered := ⟨vaxpy3, [.dest, .neg [.r], .at [.l], .dest]⟩
  same := none
  unordered := ⟨vaxpy3, [.dest, .neg [.r], .at [.l], .dest]⟩
  threaded := true }

/-- include/scalarsite_sse/qdp_scalarsite_sse_blas.h:645-718; user functions qdp_scalarsite_sse_blas_wrapper.h:25-42, 115-132 -/
def s08 : SEntry := {
  op := .assign
  rhs := (.bin .add (.bin .mul .vec .scal) .vec)
  ordered := ⟨vaxpy3, [.dest, .sc [.l, .r], .at [.l, .l], .at [.r]]⟩
  same := none
  unordered := ⟨vaxpy3, [.dest, .sc [.l, .r], .at [.l, .l], .at [.r]]⟩
  threaded := true }

/-- include/scalarsite_sse/qdp_scalarsite_sse_blas.h:724-800; user functions qdp_scalarsite_sse_blas_wrapper.h:25-42, 115-132 -/
def s09 : SEntry := {
  op := .assign
  rhs := (.bin .add .vec (.bin .mul .vec .scal))
  ordered := ⟨vaxpy3, [.dest, .sc [.r, .r], .at [.r, .l], .at [.l]]⟩
  same := none
  unordered := ⟨vaxpy3, [.dest, .sc [.r, .r], .at [.r, .l], .at [.l]]⟩
  threaded := true }

/-- include/scalarsite_sse/qdp_scalarsite_sse_blas.h:806-879; user functions qdp_scalarsite_sse_blas_wrapper.h:25-42, 115-132 -/
def s10 : SEntry := {
  op := .assign
  rhs := (.bin .sub (.bin .mul .vec .scal) .vec)
  ordered := ⟨vaxmy3, [.dest, .sc [.l, .r], .at [.l, .l], .at [.r]]⟩
  same := none
  unordered := ⟨vaxmy3, [.dest, .sc [.l, .r], .at [.l, .l], .at [.r]]⟩
  threaded := true }

/-- include/scalarsite_sse/qdp_scalarsite_sse_blas.h:885-958; user functions qdp_scalarsite_sse_blas_wrapper.h:25-42, 115-132 -/
def s11 : SEntry := {
  op := .assign
  rhs := (.bin .sub .vec (.bin .mul .vec .scal))
  ordered := ⟨vaxpy3, [.dest, .neg [.r, .r], .at [.r, .l], .at [.l]]⟩
  same := none
  unordered := ⟨vaxpy3, [.dest, .neg [.r, .r], .at [.r, .l], .at [.l]]⟩
  threaded := true }

/-- include/scalarsite_sse/qdp_scalarsite_sse_blas.h:963-1021; user functions qdp_scalarsite_sse_blas_wrapper.h:151-166, 220-239 -/
def s12 : SEntry := {
  op := .assign
  rhs := (.bin .add .vec .vec)
  ordered := ⟨vadd, [.dest, .at [.l], .at [.r]]⟩
  same := none
  unordered := ⟨vadd, [.dest, .at [.l], .at [.r]]⟩
  threaded := true }

/-- include/scalarsite_sse/qdp_scalarsite_sse_blas.h:1025-1083; user functions qdp_scalarsite_sse_blas_wrapper.h:151-166, 220-239 -/
def s13 : SEntry := {
  op := .assign
  rhs := (.bin .sub .vec .vec)
  ordered := ⟨vsub, [.dest, .at [.l], .at [.r]]⟩
  same := none
  unordered := ⟨vsub, [.dest, .at [.l], .at [.r]]⟩
  threaded := true }

/-- include/scalarsite_sse/qdp_scalarsite_sse_blas.h:1088-1143; user functions qdp_scalarsite_sse_blas_wrapper.h:256-267, 284-298 -/
def s14 : SEntry := {
  op := .assign
  rhs := (.bin .mul .scal .vec)
  ordered := ⟨vscal, [.dest, .sc [.l], .at [.r]]⟩
  same := none
  unordered := ⟨vscal, [.dest, .sc [.l], .at [.r]]⟩
  threaded := true }

/-- include/scalarsite_sse/qdp_scalarsite_sse_blas.h:1147-1203; user functions qdp_scalarsite_sse_blas_wrapper.h:256-267, 284-298 -/
def s15 : SEntry := {
  op := .assign
  rhs := (.bin .mul .vec .scal)
  ordered := ⟨vscal, [.dest, .sc [.r], .at [.l]]⟩
  same := none
  unordered := ⟨vscal, [.dest, .sc [.r], .at [.l]]⟩
  threaded := true }

/-- include/scalarsite_sse/qdp_scalarsite_sse_blas.h:1210-1263; user functions qdp_scalarsite_sse_blas_wrapper.h:256-267, 284-298 -/
def s16 : SEntry := {
  op := .multiplyAssign
  rhs := (.un .id .scal)
  ordered := ⟨vscal, [.dest, .sc [.c], .dest]⟩
  same := none
  unordered := ⟨vscal, [.dest, .sc [.c], .dest]⟩
  threaded := true }

/-- include/scalarsite_sse/qdp_scalarsite_sse_blas.h:1268-1321; user functions qdp_scalarsite_sse_blas_wrapper.h:256-267, 284-298 -/
def s17 : SEntry := {
  op := .divideAssign
  rhs := (.un .id .scal)
  ordered := ⟨vscal, [.dest, .inv [.c], .dest]⟩
  same := none
  unordered := ⟨vscal, [.dest, .inv [.c], .dest]⟩
  threaded := true }

/-- include/scalarsite_sse/qdp_scalarsite_sse_blas.h:1326-1380; user functions qdp_scalarsite_sse_blas_wrapper.h:151-166, 185-200 -/
def s18 : SEntry := {
  op := .addAssign
  rhs := (.un .id .vec)
  ordered := ⟨vadd, [.dest, .dest, .at [.c]]⟩
  same := none
  unordered := ⟨vadd, [.dest, .dest, .at [.c]]⟩
  threaded := true }

/-- include/scalarsite_sse/qdp_scalarsite_sse_blas.h:1385-1437; user functions qdp_scalarsite_sse_blas_wrapper.h:151-166, 185-200 -/
def s19 : SEntry := {
  op := .subtractAssign
  rhs := (.un .id .vec)
  ordered := ⟨vsub, [.dest, .dest, .at [.c]]⟩
  same := none
  unordered := ⟨vsub, [.dest, .dest, .at [.c]]⟩
  threaded := true }

/-- include/scalarsite_sse/qdp_scalarsite_sse_blas.h:1443-1525; user functions qdp_scalarsite_sse_blas_wrapper.h:318-335, 361-382 -/
def s20 : SEntry := {
  op := .assign
  rhs := (.bin .add (.bin .mul .scal .vec) (.bin .mul .scal .vec))
  ordered := ⟨vaxpby3, [.dest, .sc [.l, .l], .at [.l, .r], .sc [.r, .l], .at [.r, .r]]⟩
  same := none
  unordered := ⟨vaxpby3, [.dest, .sc [.l, .l], .at [.l, .r], .sc [.r, .l], .at [.r, .r]]⟩
  threaded := true }

/-- include/scalarsite_sse/qdp_scalarsite_sse_blas.h:1531-1621; user functions qdp_scalarsite_sse_blas_wrapper.h:318-335, 361-382 -/
def s21 : SEntry := {
  op := .assign
  rhs := (.bin .add (.bin .mul .vec .scal) (.bin .mul .scal .vec))
  ordered := ⟨vaxpby3, [.dest, .sc [.l, .r], .at [.l, .l], .sc [.r, .l], .at [.r, .r]]⟩
  same := none
  unordered := ⟨vaxpby3, [.dest, .sc [.l, .r], .at [.l, .l], .sc [.r, .l], .at [.r, .r]]⟩
  threaded := true }

/-- include/scalarsite_sse/qdp_scalarsite_sse_blas.h:1626-1723; user functions qdp_scalarsite_sse_blas_wrapper.h:318-335, 361-382 -/
def s22 : SEntry := {
  op := .assign
  rhs := (.bin .add (.bin .mul .scal .vec) (.bin .mul .vec .scal))
  ordered := ⟨vaxpby3, [.dest, .sc [.l, .l], .at [.l, .r], .sc [.r, .r], .at [.r, .l]]⟩
  same := none
  unordered := ⟨vaxpby3, [.dest, .sc [.l, .l], .at [.l, .r], .sc [.r, .r], .at [.r, .l]]⟩
  threaded := true }

/-- include/scalarsite_sse/qdp_scalarsite_sse_blas.h:1728-1812; user functions qdp_scalarsite_sse_blas_wrapper.h:318-335, 361-382 -/
def s23 : SEntry := {
  op := .assign
  rhs := (.bin .add (.bin .mul .vec .scal) (.bin .mul .vec .scal))
  ordered := ⟨vaxpby3, [.dest, .sc [.l, .r], .at [.l, .l], .sc [.r, .r], .at [.r, .l]]⟩
  same := none
  unordered := ⟨vaxpby3, [.dest, .sc [.l, .r], .at [.l, .l], .sc [.r, .r], .at [.r, .l]]⟩
  threaded := true }

/-- include/scalarsite_sse/qdp_scalarsite_sse_blas.h:1817-1902; user functions qdp_scalarsite_sse_blas_wrapper.h:318-335, 361-382 -/
def s24 : SEntry := {
  op := .assign
  rhs := (.bin .sub (.bin .mul .scal .vec) (.bin .mul .scal .vec))
  ordered := ⟨vaxmby3, [.dest, .sc [.l, .l], .at [.l, .r], .sc [.r, .l], .at [.r, .r]]⟩
  same := none
  unordered := ⟨vaxmby3, [.dest, .sc [.l, .l], .at [.l, .r], .sc [.r, .l], .at [.r, .r]]⟩
  threaded := true }

/-- include/scalarsite_sse/qdp_scalarsite_sse_blas.h:1908-1999; user functions qdp_scalarsite_sse_blas_wrapper.h:318-335, 361-382 -/
def s25 : SEntry := {
  op := .assign
  rhs := (.bin .sub (.bin .mul .vec .scal) (.bin .mul .scal .vec))
  ordered := ⟨vaxmby3, [.dest, .sc [.l, .r], .at [.l, .l], .sc [.r, .l], .at [.r, .r]]⟩
  same := none
  unordered := ⟨vaxmby3, [.dest, .sc [.l, .r], .at [.l, .l], .sc [.r, .l], .at [.r, .r]]⟩
  threaded := true }

/-- include/scalarsite_sse/qdp_scalarsite_sse_blas.h:2004-2101; user functions qdp_scalarsite_sse_blas_wrapper.h:318-335, 361-382 -/
def s26 : SEntry := {
  op := .assign
  rhs := (.bin .sub (.bin .mul .scal .vec) (.bin .mul .vec .scal))
  ordered := ⟨vaxmby3, [.dest, .sc [.l, .l], .at [.l, .r], .sc [.r, .r], .at [.r, .l]]⟩
  same := none
  unordered := ⟨vaxmby3, [.dest, .sc [.l, .l], .at [.l, .r], .sc [.r, .r], .at [.r, .l]]⟩
  threaded := true }

/-- include/scalarsite_sse/qdp_scalarsite_sse_blas.h:2106-2190; user functions qdp_scalarsite_sse_blas_wrapper.h:318-335, 361-382 -/
def s27 : SEntry := {
  op := .assign
  rhs := (.bin .sub (.bin .mul .vec .scal) (.bin .mul .vec .scal))
  ordered := ⟨vaxmby3, [.dest, .sc [.l, .r], .at [.l, .l], .sc [.r, .r], .at [.r, .l]]⟩
  same := none
  unordered := ⟨vaxmby3, [.dest, .sc [.l, .r], .at [.l, .l], .sc [.r, .r], .at [.r, .l]]⟩
  threaded := true }

/-- include/scalarsite_sse/qdp_scalarsite_sse_blas_double.h:66-121; user functions qdp_scalarsite_sse_blas_double_wrapper.h:26-41, 64-80 -/
def d00 : SEntry := {
  op := .addAssign
  rhs := (.bin .mul .scal .vec)
  ordered := ⟨vaxpy4, [.dest, .sc [.l], .at [.r], .dest]⟩
  same := none
  unordered := ⟨vaxpy4, [.dest, .sc [.l], .at [.r], .dest]⟩
  threaded := true }

/-- include/scalarsite_sse/qdp_scalarsite_sse_blas_double.h:126-183; user functions qdp_scalarsite_sse_blas_double_wrapper.h:26-41, 64-80 -/
def d01 : SEntry := {
  op := .subtractAssign
  rhs := (.bin .mul .scal .vec)
  ordered := ⟨vaxpy4, [.dest, .neg [.l], .at [.r], .dest]⟩
  same := none
  unordered := ⟨vaxpy4, [.dest, .neg [.l], .at [.r], .dest]⟩
  threaded := true }

/-- include/scalarsite_sse/qdp_scalarsite_sse_blas_double.h:189-281; user functions qdp_scalarsite_sse_blas_double_wrapper.h:99-116, 26-41, 141-161 -/
def d02 : SEntry := {
  op := .assign
  rhs := (.bin .add (.bin .mul .scal .vec) .vec)
  ordered := ⟨vaxpyz4, [.dest, .sc [.l, .l], .at [.l, .r], .at [.r]]⟩
  same := some ([.r], ⟨vaxpy4, [.at [.r], .sc [.l, .l], .at [.l, .r], .at [.r]]⟩)
  unordered := ⟨vaxpyz4, [.dest, .sc [.l, .l], .at [.l, .r], .at [.r]]⟩
  threaded := true }

/-- include/scalarsite_sse/qdp_scalarsite_sse_blas_double.h:287-380; user functions qdp_scalarsite_sse_blas_double_wrapper.h:99-116, 26-41, 141-161 -/
def d03 : SEntry := {
  op := .assign
  rhs := (.bin .add .vec (.bin .mul .scal .vec))
  ordered := ⟨vaxpyz4, [.dest, .sc [.r, .l], .at [.r, .r], .at [.l]]⟩
  same := some ([.l], ⟨vaxpy4, [.at [.l], .sc [.r, .l], .at [.r, .r], .at [.l]]⟩)
  unordered := ⟨vaxpyz4, [.dest, .sc [.r, .l], .at [.r, .r], .at [.l]]⟩
  threaded := true }

/-- include/scalarsite_sse/qdp_scalarsite_sse_blas_double.h:385-474; user functions qdp_scalarsite_sse_blas_double_wrapper.h:99-116, 26-41, 141-161 -/
def d04 : SEntry := {
  op := .assign
  rhs := (.bin .sub (.bin .mul .scal .vec) .vec)
  ordered := ⟨vaxmyz4, [.dest, .sc [.l, .l], .at [.l, .r], .at [.r]]⟩
  same := some ([.r], ⟨vaxmy4, [.at [.r], .sc [.l, .l], .at [.l, .r], .at [.r]]⟩)
  unordered := ⟨vaxmyz4, [.dest, .sc [.l, .l], .at [.l, .r], .at [.r]]⟩
  threaded := true }

/-- include/scalarsite_sse/qdp_scalarsite_sse_blas_double.h:479-569; user functions qdp_scalarsite_sse_blas_double_wrapper.h:99-116, 26-41, 141-161 -/
def d05 : SEntry := {
  op := .assign
  rhs := (.bin .sub .vec (.bin .mul .scal .vec))
  ordered := ⟨vaxpyz4, [.dest, .neg [.r, .l], .at [.r, .r], .at [.l]]⟩
  same := some ([.l], ⟨vaxpy4, [.at [.l], .neg [.r, .l], .at [.r, .r], .at [.l]]⟩)
  unordered := ⟨vaxpyz4, [.dest, .neg [.r, .l], .at [.r, .r], .at [.l]]⟩
  threaded := true }

/-- include/scalarsite_sse/qdp_scalarsite_sse_blas_double.h:574-633; user functions qdp_scalarsite_sse_blas_double_wrapper.h:26-41, 64-80 -/
def d06 : SEntry := {
  op := .addAssign
  rhs := (.bin .mul .vec .scal)
  ordered := ⟨vaxpy4, [.dest, .sc [.r], .at [.l], .dest]⟩
  same := none
  unordered := ⟨vaxpy4, [.dest, .sc [.r], .at [.l], .dest]⟩
  threaded := true }

/-- include/scalarsite_sse/qdp_scalarsite_sse_blas_double.h:639-697; user functions qdp_scalarsite_sse_blas_double_wrapper.h:26-41, 64-80 -/
def d07 : SEntry := {
  op := .subtractAssign
  rhs := (.bin .mul .vec .scal)
  ordered := ⟨vaxpy4, [.dest, .neg [.r], .at [.l], .dest]⟩
  same := none
  unordered := ⟨vaxpy4, [.dest, .neg [.r], .at [.l], .dest]⟩
  threaded := true }

/-- include/scalarsite_sse/qdp_scalarsite_sse_blas_double.h:703-796; user functions qdp_scalarsite_sse_blas_double_wrapper.h:99-116, 26-41, 141-161 -/
def d08 : SEntry := {
  op := .assign
  rhs := (.bin .add (.bin .mul .vec .scal) .vec)
  ordered := ⟨vaxpyz4, [.dest, .sc [.l, .r], .at [.l, .l], .at [.r]]⟩
  same := some ([.r], ⟨vaxpy4, [.at [.r], .sc [.l, .r], .at [.l, .l], .at [.r]]⟩)
  unordered := ⟨vaxpyz4, [.dest, .sc [.l, .r], .at [.l, .l], .at [.r]]⟩
  threaded := true }

/-- include/scalarsite_sse/qdp_scalarsite_sse_blas_double.h:802-895; user functions qdp_scalarsite_sse_blas_double_wrapper.h:99-116, 26-41, 141-161 -/
def d09 : SEntry := {
  op := .assign
  rhs := (.bin .add .vec (.bin .mul .vec .scal))
  ordered := ⟨vaxpyz4, [.dest, .sc [.r, .r], .at [.r, .l], .at [.l]]⟩
  same := some ([.l], ⟨vaxpy4, [.at [.l], .sc [.r, .r], .at [.r, .l], .at [.l]]⟩)
  unordered := ⟨vaxpyz4, [.dest, .sc [.r, .r], .at [.r, .l], .at [.l]]⟩
  threaded := true }

/-- include/scalarsite_sse/qdp_scalarsite_sse_blas_double.h:901-992; user functions qdp_scalarsite_sse_blas_double_wrapper.h:99-116, 26-41, 141-161 -/
def d10 : SEntry := {
  op := .assign
  rhs := (.bin .sub (.bin .mul .vec .scal) .vec)
  ordered := ⟨vaxmyz4, [.dest, .sc [.l, .r], .at [.l, .l], .at [.r]]⟩
  same := some ([.r], ⟨vaxmy4, [.at [.r], .sc [.l, .r], .at [.l, .l], .at [.r]]⟩)
  unordered := ⟨vaxmyz4, [.dest, .sc [.l, .r], .at [.l, .l], .at [.r]]⟩
  threaded := true }

/-- include/scalarsite_sse/qdp_scalarsite_sse_blas_double.h:998-1090; user functions qdp_scalarsite_sse_blas_double_wrapper.h:99-116, 26-41, 141-161 -/
def d11 : SEntry := {
  op := .assign
  rhs := (.bin .sub .vec (.bin .mul .vec .scal))
  ordered := ⟨vaxpyz4, [.dest, .neg [.r, .r], .at [.r, .l], .at [.l]]⟩
  same := some ([.l], ⟨vaxpy4, [.at [.l], .neg [.r, .r], .at [.r, .l], .at [.l]]⟩)
  unordered := ⟨vaxpyz4, [.dest, .neg [.r, .r], .at [.r, .l], .at [.l]]⟩
  threaded := true }

/-- include/scalarsite_sse/qdp_scalarsite_sse_blas_double.h:1095-1172; user functions qdp_scalarsite_sse_blas_double_wrapper.h:99-116, 26-41, 141-161 -/
def d12 : SEntry := {
  op := .assign
  rhs := (.bin .add .vec .vec)
  ordered := ⟨vaxpyz4, [.dest, .one, .at [.l], .at [.r]]⟩
  same := some ([.r], ⟨vaxpy4, [.at [.r], .one, .at [.l], .at [.r]]⟩)
  unordered := ⟨vaxpyz4, [.dest, .one, .at [.l], .at [.r]]⟩
  threaded := true }

/-- include/scalarsite_sse/qdp_scalarsite_sse_blas_double.h:1176-1252; user functions qdp_scalarsite_sse_blas_double_wrapper.h:99-116, 26-41, 141-161 -/
def d13 : SEntry := {
  op := .assign
  rhs := (.bin .sub .vec .vec)
  ordered := ⟨vaxmyz4, [.dest, .one, .at [.l], .at [.r]]⟩
  same := some ([.r], ⟨vaxmy4, [.at [.r], .one, .at [.l], .at [.r]]⟩)
  unordered := ⟨vaxmyz4, [.dest, .one, .at [.l], .at [.r]]⟩
  threaded := true }

/-- include/scalarsite_sse/qdp_scalarsite_sse_blas_double.h:1258-1316 -/
def d14 : SEntry := {
  op := .assign
  rhs := (.bin .mul .scal .vec)
  ordered := ⟨vscal4, [.dest, .sc [.l], .at [.r]]⟩
  same := none
  unordered := ⟨vscal4, [.dest, .sc [.l], .at [.r]]⟩
  threaded := false }

/-- include/scalarsite_sse/qdp_scalarsite_sse_blas_double.h:1321-1376; user functions qdp_scalarsite_sse_blas_double_wrapper.h:178-191, 212-228 -/
def d15 : SEntry := {
  op := .assign
  rhs := (.bin .mul .vec .scal)
  ordered := ⟨vscal4, [.dest, .sc [.r], .at [.l]]⟩
  same := none
  unordered := ⟨vscal4, [.dest, .sc [.r], .at [.l]]⟩
  threaded := true }

/-- include/scalarsite_sse/qdp_scalarsite_sse_blas_double.h:1382-1437; user functions qdp_scalarsite_sse_blas_double_wrapper.h:178-191, 212-228 -/
def d16 : SEntry := {
  op := .multiplyAssign
  rhs := (.un .id .scal)
  ordered := ⟨vscal4, [.dest, .sc [.c], .dest]⟩
  same := none
  unordered := ⟨vscal4, [.dest, .sc [.c], .dest]⟩
  threaded := true }

/-- include/scalarsite_sse/qdp_scalarsite_sse_blas_double.h:1442-1496; user functions qdp_scalarsite_sse_blas_double_wrapper.h:178-191, 212-228 -/
def d17 : SEntry := {
  op := .divideAssign
  rhs := (.un .id .scal)
  ordered := ⟨vscal4, [.dest, .inv [.c], .dest]⟩
  same := none
  unordered := ⟨vscal4, [.dest, .inv [.c], .dest]⟩
  threaded := true }

/-- include/scalarsite_sse/qdp_scalarsite_sse_blas_double.h:1502-1561; user functions qdp_scalarsite_sse_blas_double_wrapper.h:26-41, 64-80 -/
def d18 : SEntry := {
  op := .addAssign
  rhs := (.un .id .vec)
  ordered := ⟨vaxpy4, [.dest, .one, .at [.c], .dest]⟩
  same := none
  unordered := ⟨vaxpy4, [.dest, .one, .at [.c], .dest]⟩
  threaded := true }

/-- include/scalarsite_sse/qdp_scalarsite_sse_blas_double.h:1567-1624; user functions qdp_scalarsite_sse_blas_double_wrapper.h:26-41, 64-80 -/
def d19 : SEntry := {
  op := .subtractAssign
  rhs := (.un .id .vec)
  ordered := ⟨vaxpy4, [.dest, .mone, .at [.c], .dest]⟩
  same := none
  unordered := ⟨vaxpy4, [.dest, .mone, .at [.c], .dest]⟩
  threaded := true }

/-- include/scalarsite_sse/qdp_scalarsite_sse_blas_double.h:1630-1734; user functions qdp_scalarsite_sse_blas_double_wrapper.h:283-301, 247-263, 329-352 -/
def d20 : SEntry := {
  op := .assign
  rhs := (.bin .add (.bin .mul .scal .vec) (.bin .mul .scal .vec))
  ordered := ⟨vaxpbyz4, [.dest, .sc [.l, .l], .at [.l, .r], .sc [.r, .l], .at [.r, .r]]⟩
  same := some ([.r, .r], ⟨vaxpby4, [.at [.r, .r], .sc [.l, .l], .at [.l, .r], .sc [.r, .l], .at [.r, .r]]⟩)
  unordered := ⟨vaxpbyz4, [.dest, .sc [.l, .l], .at [.l, .r], .sc [.r, .l], .at [.r, .r]]⟩
  threaded := true }

/-- include/scalarsite_sse/qdp_scalarsite_sse_blas_double.h:1740-1850; user functions qdp_scalarsite_sse_blas_double_wrapper.h:283-301, 247-263, 329-352 -/
def d21 : SEntry := {
  op := .assign
  rhs := (.bin .add (.bin .mul .vec .scal) (.bin .mul .scal .vec))
  ordered := ⟨vaxpbyz4, [.dest, .sc [.l, .r], .at [.l, .l], .sc [.r, .l], .at [.r, .r]]⟩
  same := some ([.r, .r], ⟨vaxpby4, [.at [.r, .r], .sc [.l, .r], .at [.l, .l], .sc [.r, .l], .at [.r, .r]]⟩)
  unordered := ⟨vaxpbyz4, [.dest, .sc [.l, .r], .at [.l, .l], .sc [.r, .l], .at [.r, .r]]⟩
  threaded := true }

/-- include/scalarsite_sse/qdp_scalarsite_sse_blas_double.h:1855-1975; user functions qdp_scalarsite_sse_blas_double_wrapper.h:283-301, 247-263, 329-352 -/
def d22 : SEntry := {
  op := .assign
  rhs := (.bin .add (.bin .mul .scal .vec) (.bin .mul .vec .scal))
  ordered := ⟨vaxpbyz4, [.dest, .sc [.l, .l], .at [.l, .r], .sc [.r, .r], .at [.r, .l]]⟩
  same := some ([.r, .l], ⟨vaxpby4, [.at [.r, .l], .sc [.l, .l], .at [.l, .r], .sc [.r, .r], .at [.r, .l]]⟩)
  unordered := ⟨vaxpbyz4, [.dest, .sc [.l, .l], .at [.l, .r], .sc [.r, .r], .at [.r, .l]]⟩
  threaded := true }

/-- include/scalarsite_sse/qdp_scalarsite_sse_blas_double.h:1980-2085; user functions qdp_scalarsite_sse_blas_double_wrapper.h:283-301, 247-263, 329-352 -/
def d23 : SEntry := {
  op := .assign
  rhs := (.bin .add (.bin .mul .vec .scal) (.bin .mul .vec .scal))
  ordered := ⟨vaxpbyz4, [.dest, .sc [.l, .r], .at [.l, .l], .sc [.r, .r], .at [.r, .l]]⟩
  same := some ([.r, .l], ⟨vaxpby4, [.at [.r, .l], .sc [.l, .r], .at [.l, .l], .sc [.r, .r], .at [.r, .l]]⟩)
  unordered := ⟨vaxpbyz4, [.dest, .sc [.l, .r], .at [.l, .l], .sc [.r, .r], .at [.r, .l]]⟩
  threaded := true }

/-- include/scalarsite_sse/qdp_scalarsite_sse_blas_double.h:2091-2196; user functions qdp_scalarsite_sse_blas_double_wrapper.h:283-301, 247-263, 329-352 -/
def d24 : SEntry := {
  op := .assign
  rhs := (.bin .sub (.bin .mul .scal .vec) (.bin .mul .scal .vec))
  ordered := ⟨vaxmbyz4, [.dest, .sc [.l, .l], .at [.l, .r], .sc [.r, .l], .at [.r, .r]]⟩
  same := some ([.r, .r], ⟨vaxmby4, [.at [.r, .r], .sc [.l, .l], .at [.l, .r], .sc [.r, .l], .at [.r, .r]]⟩)
  unordered := ⟨vaxmbyz4, [.dest, .sc [.l, .l], .at [.l, .r], .sc [.r, .l], .at [.r, .r]]⟩
  threaded := true }

/-- include/scalarsite_sse/qdp_scalarsite_sse_blas_double.h:2202-2314; user functions qdp_scalarsite_sse_blas_double_wrapper.h:283-301, 247-263, 329-352 -/
def d25 : SEntry := {
  op := .assign
  rhs := (.bin .sub (.bin .mul .vec .scal) (.bin .mul .scal .vec))
  ordered := ⟨vaxmbyz4, [.dest, .sc [.l, .r], .at [.l, .l], .sc [.r, .l], .at [.r, .r]]⟩
  same := some ([.r, .r], ⟨vaxmby4, [.at [.r, .r], .sc [.l, .r], .at [.l, .l], .sc [.r, .l], .at [.r, .r]]⟩)
  unordered := ⟨vaxmbyz4, [.dest, .sc [.l, .r], .at [.l, .l], .sc [.r, .l], .at [.r, .r]]⟩
  threaded := true }

/-- include/scalarsite_sse/qdp_scalarsite_sse_blas_double.h:2319-2439; user functions qdp_scalarsite_sse_blas_double_wrapper.h:283-301, 247-263, 329-352 -/
def d26 : SEntry := {
  op := .assign
  rhs := (.bin .sub (.bin .mul .scal .vec) (.bin .mul .vec .scal))
  ordered := ⟨vaxmbyz4, [.dest, .sc [.l, .l], .at [.l, .r], .sc [.r, .r], .at [.r, .l]]⟩
  same := some ([.r, .l], ⟨vaxmby4, [.at [.r, .l], .sc [.l, .l], .at [.l, .r], .sc [.r, .r], .at [.r, .l]]⟩)
  unordered := ⟨vaxmbyz4, [.dest, .sc [.l, .l], .at [.l, .r], .sc [.r, .r], .at [.r, .l]]⟩
  threaded := true }

/-- include/scalarsite_sse/qdp_scalarsite_sse_blas_double.h:2444-2550; user functions qdp_scalarsite_sse_blas_double_wrapper.h:283-301, 247-263, 329-352 -/
def d27 : SEntry := {
  op := .assign
  rhs := (.bin .sub (.bin .mul .vec .scal) (.bin .mul .vec .scal))
  ordered := ⟨vaxmbyz4, [.dest, .sc [.l, .r], .at [.l, .l], .sc [.r, .r], .at [.r, .l]]⟩
  same := some ([.r, .l], ⟨vaxmby4, [.at [.r, .l], .sc [.l, .r], .at [.l, .l], .sc [.r, .r], .at [.r, .l]]⟩)
  unordered := ⟨vaxmbyz4, [.dest, .sc [.l, .r], .at [.l, .l], .sc [.r, .r], .at [.r, .l]]⟩
  threaded := true }

/-- the specialisations for fields of numbers of type `REAL32` -/
def singles : List SEntry := [s00, s01, s02, s03, s04, s05, s06, s07, s08, s09, s10, s11, s12, s13, s14, s15, s16, s17, s18, s19, s20, s21, s22, s23, s24, s25, s26, s27]

/-- the specialisations for fields of numbers of type `REAL64` -/
def doubles : List SEntry := [d00, d01, d02, d03, d04, d05, d06, d07, d08, d09, d10, d11, d12, d13, d14, d15, d16, d17, d18, d19, d20, d21, d22, d23, d24, d25, d26, d27]

end Verif.SseBlas.Tables
