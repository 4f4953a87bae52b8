import Verif.Sse
/-
The kernels of lib/scalarsite_sse/sse_linalg_*_double.cc.  Written by tools/gen_sse.py from the text of these files.
-/
namespace Verif.Sse

/-! ### lib/scalarsite_sse/sse_linalg_m_eq_mm_double.cc -/

/-- `CMUL`, SSE2: lib/scalarsite_sse/sse_linalg_m_eq_mm_double.cc:19-30 -/
def mmCMUL2 (z : Nat) (x y : Reg) : List Ins :=
  [.mul 21 x y,
   .shuf 22 (.v 21) (.v 21) 1,
   .shuf 23 y y 1,
   .sub z (.v 21) (.v 22),
   .mul 22 x (.v 23),
   .shuf 23 (.v 22) (.v 22) 1,
   .add 23 (.v 22) (.v 23),
   .shuf z (.v z) (.v 23) 2]

/-- `CMUL`, SSE3: lib/scalarsite_sse/sse_linalg_m_eq_mm_double.cc:54-63 -/
def mmCMUL3 (z : Nat) (x y : Reg) : List Ins :=
  [.mul 21 x y,
   .hsub z (.v 21) (.v 21),
   .shuf 21 y y 1,
   .mul 21 x (.v 21),
   .hadd 21 (.v 21) (.v 21),
   .shuf z (.v z) (.v 21) 2]

/-- the macro as compiled -/
def mmCMUL (sse3 : Bool) (z : Nat) (x y : Reg) : List Ins := if sse3 then mmCMUL3 z x y else mmCMUL2 z x y

/-- `CMADD`, SSE2: lib/scalarsite_sse/sse_linalg_m_eq_mm_double.cc:33-45 -/
def mmCMADD2 (z : Nat) (x y : Reg) : List Ins :=
  [.mul 21 x y,
   .shuf 22 (.v 21) (.v 21) 1,
   .shuf 23 y y 1,
   .sub 24 (.v 21) (.v 22),
   .mul 22 x (.v 23),
   .shuf 23 (.v 22) (.v 22) 1,
   .add 23 (.v 22) (.v 23),
   .shuf 24 (.v 24) (.v 23) 2,
   .add z (.v z) (.v 24)]

/-- `CMADD`, SSE3: lib/scalarsite_sse/sse_linalg_m_eq_mm_double.cc:65-75 -/
def mmCMADD3 (z : Nat) (x y : Reg) : List Ins :=
  [.mul 21 x y,
   .hsub 21 (.v 21) (.v 21),
   .shuf 22 y y 1,
   .mul 22 x (.v 22),
   .hadd 22 (.v 22) (.v 22),
   .shuf 21 (.v 21) (.v 22) 2,
   .add z (.v z) (.v 21)]

/-- the macro as compiled -/
def mmCMADD (sse3 : Bool) (z : Nat) (x y : Reg) : List Ins := if sse3 then mmCMADD3 z x y else mmCMADD2 z x y

/-- `ssed_m_eq_mm(m3, m2, m1, n_mat)`: lib/scalarsite_sse/sse_linalg_m_eq_mm_double.cc:82-200; parameters 0, 1, 2 are `m3`, `m2`, `m1` -/
def ssed_m_eq_mm : Kern where
  pre := []
  body := fun s =>
    List.flatten [
      [.ld 3 1 0, .ld 0 2 0, .ld 1 2 2, .ld 2 2 4],
      mmCMUL s 5 (.v 3) (.v 0),
      mmCMUL s 6 (.v 3) (.v 1),
      mmCMUL s 7 (.v 3) (.v 2),
      [.ld 3 1 2, .ld 0 2 6, .ld 1 2 8, .ld 2 2 10],
      mmCMADD s 5 (.v 3) (.v 0),
      mmCMADD s 6 (.v 3) (.v 1),
      mmCMADD s 7 (.v 3) (.v 2),
      [.ld 3 1 4, .ld 0 2 12, .ld 1 2 14, .ld 2 2 16],
      mmCMADD s 5 (.v 3) (.v 0),
      [.st 0 0 (.v 5)],
      mmCMADD s 6 (.v 3) (.v 1),
      [.st 0 2 (.v 6)],
      mmCMADD s 7 (.v 3) (.v 2),
      [.st 0 4 (.v 7), .ld 4 1 6, .ld 3 1 12, .ld 0 2 0, .ld 1 2 2, .ld 2 2 4],
      mmCMUL s 8 (.v 4) (.v 0),
      mmCMUL s 9 (.v 4) (.v 1),
      mmCMUL s 10 (.v 4) (.v 2),
      mmCMUL s 5 (.v 3) (.v 0),
      mmCMUL s 6 (.v 3) (.v 1),
      mmCMUL s 7 (.v 3) (.v 2),
      [.ld 4 1 8, .ld 3 1 14, .ld 0 2 6, .ld 1 2 8, .ld 2 2 10],
      mmCMADD s 8 (.v 4) (.v 0),
      mmCMADD s 9 (.v 4) (.v 1),
      mmCMADD s 10 (.v 4) (.v 2),
      mmCMADD s 5 (.v 3) (.v 0),
      mmCMADD s 6 (.v 3) (.v 1),
      mmCMADD s 7 (.v 3) (.v 2),
      [.ld 4 1 10, .ld 3 1 16, .ld 0 2 12, .ld 1 2 14, .ld 2 2 16],
      mmCMADD s 8 (.v 4) (.v 0),
      [.st 0 6 (.v 8)],
      mmCMADD s 9 (.v 4) (.v 1),
      [.st 0 8 (.v 9)],
      mmCMADD s 10 (.v 4) (.v 2),
      [.st 0 10 (.v 10)],
      mmCMADD s 5 (.v 3) (.v 0),
      [.st 0 12 (.v 5)],
      mmCMADD s 6 (.v 3) (.v 1),
      [.st 0 14 (.v 6)],
      mmCMADD s 7 (.v 3) (.v 2),
      [.st 0 16 (.v 7)]]

/-- `ssed_m_peq_amm(m3, a, m2, m1, n_mat)`: lib/scalarsite_sse/sse_linalg_m_eq_mm_double.cc:203-364; parameters 0, 1, 2 are `m3`, `m2`, `m1` -/
def ssed_m_peq_amm : Kern where
  pre := [.sd 0, .zero 12, .shuf 12 (.v 0) (.v 0) 1, .add 0 (.v 0) (.v 12)]
  body := fun s =>
    List.flatten [
      [.ld 5 0 0, .ld 6 0 2, .ld 7 0 4, .ld 3 1 0, .mul 3 (.v 3) (.c 0), .ld 0 2 0, .ld 1 2 2, .ld 2 2 4],
      mmCMADD s 5 (.v 3) (.v 0),
      mmCMADD s 6 (.v 3) (.v 1),
      mmCMADD s 7 (.v 3) (.v 2),
      [.ld 3 1 2, .mul 3 (.v 3) (.c 0), .ld 0 2 6, .ld 1 2 8, .ld 2 2 10],
      mmCMADD s 5 (.v 3) (.v 0),
      mmCMADD s 6 (.v 3) (.v 1),
      mmCMADD s 7 (.v 3) (.v 2),
      [.ld 3 1 4, .mul 3 (.v 3) (.c 0), .ld 0 2 12, .ld 1 2 14, .ld 2 2 16],
      mmCMADD s 5 (.v 3) (.v 0),
      [.st 0 0 (.v 5)],
      mmCMADD s 6 (.v 3) (.v 1),
      [.st 0 2 (.v 6)],
      mmCMADD s 7 (.v 3) (.v 2),
      [.st 0 4 (.v 7), .ld 8 0 6, .ld 9 0 8, .ld 10 0 10, .ld 5 0 12, .ld 6 0 14, .ld 7 0 16, .ld 4 1 6, .mul 4 (.v 4) (.c 0), .ld 3 1 12, .mul 3 (.v 3) (.c 0), .ld 0 2 0, .ld 1 2 2, .ld 2 2 4],
      mmCMADD s 8 (.v 4) (.v 0),
      mmCMADD s 9 (.v 4) (.v 1),
      mmCMADD s 10 (.v 4) (.v 2),
      mmCMADD s 5 (.v 3) (.v 0),
      mmCMADD s 6 (.v 3) (.v 1),
      mmCMADD s 7 (.v 3) (.v 2),
      [.ld 4 1 8, .mul 4 (.v 4) (.c 0), .ld 3 1 14, .mul 3 (.v 3) (.c 0), .ld 0 2 6, .ld 1 2 8, .ld 2 2 10],
      mmCMADD s 8 (.v 4) (.v 0),
      mmCMADD s 9 (.v 4) (.v 1),
      mmCMADD s 10 (.v 4) (.v 2),
      mmCMADD s 5 (.v 3) (.v 0),
      mmCMADD s 6 (.v 3) (.v 1),
      mmCMADD s 7 (.v 3) (.v 2),
      [.ld 4 1 10, .mul 4 (.v 4) (.c 0), .ld 3 1 16, .mul 3 (.v 3) (.c 0), .ld 0 2 12, .ld 1 2 14, .ld 2 2 16],
      mmCMADD s 8 (.v 4) (.v 0),
      [.st 0 6 (.v 8)],
      mmCMADD s 9 (.v 4) (.v 1),
      [.st 0 8 (.v 9)],
      mmCMADD s 10 (.v 4) (.v 2),
      [.st 0 10 (.v 10)],
      mmCMADD s 5 (.v 3) (.v 0),
      [.st 0 12 (.v 5)],
      mmCMADD s 6 (.v 3) (.v 1),
      [.st 0 14 (.v 6)],
      mmCMADD s 7 (.v 3) (.v 2),
      [.st 0 16 (.v 7)]]

/-- `ssed_m_eq_mm_u(m3, m2, m1, n_mat)`: lib/scalarsite_sse/sse_linalg_m_eq_mm_double.cc:372-490; parameters 0, 1, 2 are `m3`, `m2`, `m1` -/
def ssed_m_eq_mm_u : Kern where
  pre := []
  body := fun s =>
    List.flatten [
      [.ld 3 1 0, .ld 0 2 0, .ld 1 2 2, .ld 2 2 4],
      mmCMUL s 5 (.v 3) (.v 0),
      mmCMUL s 6 (.v 3) (.v 1),
      mmCMUL s 7 (.v 3) (.v 2),
      [.ld 3 1 2, .ld 0 2 6, .ld 1 2 8, .ld 2 2 10],
      mmCMADD s 5 (.v 3) (.v 0),
      mmCMADD s 6 (.v 3) (.v 1),
      mmCMADD s 7 (.v 3) (.v 2),
      [.ld 3 1 4, .ld 0 2 12, .ld 1 2 14, .ld 2 2 16],
      mmCMADD s 5 (.v 3) (.v 0),
      [.st 0 0 (.v 5)],
      mmCMADD s 6 (.v 3) (.v 1),
      [.st 0 2 (.v 6)],
      mmCMADD s 7 (.v 3) (.v 2),
      [.st 0 4 (.v 7), .ld 4 1 6, .ld 3 1 12, .ld 0 2 0, .ld 1 2 2, .ld 2 2 4],
      mmCMUL s 8 (.v 4) (.v 0),
      mmCMUL s 9 (.v 4) (.v 1),
      mmCMUL s 10 (.v 4) (.v 2),
      mmCMUL s 5 (.v 3) (.v 0),
      mmCMUL s 6 (.v 3) (.v 1),
      mmCMUL s 7 (.v 3) (.v 2),
      [.ld 4 1 8, .ld 3 1 14, .ld 0 2 6, .ld 1 2 8, .ld 2 2 10],
      mmCMADD s 8 (.v 4) (.v 0),
      mmCMADD s 9 (.v 4) (.v 1),
      mmCMADD s 10 (.v 4) (.v 2),
      mmCMADD s 5 (.v 3) (.v 0),
      mmCMADD s 6 (.v 3) (.v 1),
      mmCMADD s 7 (.v 3) (.v 2),
      [.ld 4 1 10, .ld 3 1 16, .ld 0 2 12, .ld 1 2 14, .ld 2 2 16],
      mmCMADD s 8 (.v 4) (.v 0),
      [.st 0 6 (.v 8)],
      mmCMADD s 9 (.v 4) (.v 1),
      [.st 0 8 (.v 9)],
      mmCMADD s 10 (.v 4) (.v 2),
      [.st 0 10 (.v 10)],
      mmCMADD s 5 (.v 3) (.v 0),
      [.st 0 12 (.v 5)],
      mmCMADD s 6 (.v 3) (.v 1),
      [.st 0 14 (.v 6)],
      mmCMADD s 7 (.v 3) (.v 2),
      [.st 0 16 (.v 7)]]

/-- `ssed_m_peq_amm_u(m3, a, m2, m1, n_mat)`: lib/scalarsite_sse/sse_linalg_m_eq_mm_double.cc:493-654; parameters 0, 1, 2 are `m3`, `m2`, `m1` -/
def ssed_m_peq_amm_u : Kern where
  pre := [.sd 0, .zero 12, .shuf 12 (.v 0) (.v 0) 1, .add 0 (.v 0) (.v 12)]
  body := fun s =>
    List.flatten [
      [.ld 5 0 0, .ld 6 0 2, .ld 7 0 4, .ld 3 1 0, .mul 3 (.v 3) (.c 0), .ld 0 2 0, .ld 1 2 2, .ld 2 2 4],
      mmCMADD s 5 (.v 3) (.v 0),
      mmCMADD s 6 (.v 3) (.v 1),
      mmCMADD s 7 (.v 3) (.v 2),
      [.ld 3 1 2, .mul 3 (.v 3) (.c 0), .ld 0 2 6, .ld 1 2 8, .ld 2 2 10],
      mmCMADD s 5 (.v 3) (.v 0),
      mmCMADD s 6 (.v 3) (.v 1),
      mmCMADD s 7 (.v 3) (.v 2),
      [.ld 3 1 4, .mul 3 (.v 3) (.c 0), .ld 0 2 12, .ld 1 2 14, .ld 2 2 16],
      mmCMADD s 5 (.v 3) (.v 0),
      [.st 0 0 (.v 5)],
      mmCMADD s 6 (.v 3) (.v 1),
      [.st 0 2 (.v 6)],
      mmCMADD s 7 (.v 3) (.v 2),
      [.st 0 4 (.v 7), .ld 8 0 6, .ld 9 0 8, .ld 10 0 10, .ld 5 0 12, .ld 6 0 14, .ld 7 0 16, .ld 4 1 6, .mul 4 (.v 4) (.c 0), .ld 3 1 12, .mul 3 (.v 3) (.c 0), .ld 0 2 0, .ld 1 2 2, .ld 2 2 4],
      mmCMADD s 8 (.v 4) (.v 0),
      mmCMADD s 9 (.v 4) (.v 1),
      mmCMADD s 10 (.v 4) (.v 2),
      mmCMADD s 5 (.v 3) (.v 0),
      mmCMADD s 6 (.v 3) (.v 1),
      mmCMADD s 7 (.v 3) (.v 2),
      [.ld 4 1 8, .mul 4 (.v 4) (.c 0), .ld 3 1 14, .mul 3 (.v 3) (.c 0), .ld 0 2 6, .ld 1 2 8, .ld 2 2 10],
      mmCMADD s 8 (.v 4) (.v 0),
      mmCMADD s 9 (.v 4) (.v 1),
      mmCMADD s 10 (.v 4) (.v 2),
      mmCMADD s 5 (.v 3) (.v 0),
      mmCMADD s 6 (.v 3) (.v 1),
      mmCMADD s 7 (.v 3) (.v 2),
      [.ld 4 1 10, .mul 4 (.v 4) (.c 0), .ld 3 1 16, .mul 3 (.v 3) (.c 0), .ld 0 2 12, .ld 1 2 14, .ld 2 2 16],
      mmCMADD s 8 (.v 4) (.v 0),
      [.st 0 6 (.v 8)],
      mmCMADD s 9 (.v 4) (.v 1),
      [.st 0 8 (.v 9)],
      mmCMADD s 10 (.v 4) (.v 2),
      [.st 0 10 (.v 10)],
      mmCMADD s 5 (.v 3) (.v 0),
      [.st 0 12 (.v 5)],
      mmCMADD s 6 (.v 3) (.v 1),
      [.st 0 14 (.v 6)],
      mmCMADD s 7 (.v 3) (.v 2),
      [.st 0 16 (.v 7)]]

/-! ### lib/scalarsite_sse/sse_linalg_m_eq_hm_double.cc -/

/-- `CONJMUL`, SSE2: lib/scalarsite_sse/sse_linalg_m_eq_hm_double.cc:20-31 -/
def hmCONJMUL2 (z : Nat) (x y : Reg) : List Ins :=
  [.mul 21 x y,
   .shuf 22 (.v 21) (.v 21) 1,
   .shuf 23 y y 1,
   .add z (.v 21) (.v 22),
   .mul 22 x (.v 23),
   .shuf 23 (.v 22) (.v 22) 1,
   .sub 23 (.v 22) (.v 23),
   .shuf z (.v z) (.v 23) 2]

/-- `CONJMUL`, SSE3: lib/scalarsite_sse/sse_linalg_m_eq_hm_double.cc:52-61 -/
def hmCONJMUL3 (z : Nat) (x y : Reg) : List Ins :=
  [.mul 21 x y,
   .hadd z (.v 21) (.v 21),
   .shuf 21 x x 1,
   .mul 21 y (.v 21),
   .hsub 21 (.v 21) (.v 21),
   .shuf z (.v z) (.v 21) 2]

/-- the macro as compiled -/
def hmCONJMUL (sse3 : Bool) (z : Nat) (x y : Reg) : List Ins := if sse3 then hmCONJMUL3 z x y else hmCONJMUL2 z x y

/-- `CONJMADD`, SSE2: lib/scalarsite_sse/sse_linalg_m_eq_hm_double.cc:33-45 -/
def hmCONJMADD2 (z : Nat) (x y : Reg) : List Ins :=
  [.mul 21 x y,
   .shuf 22 (.v 21) (.v 21) 1,
   .shuf 23 y y 1,
   .add 24 (.v 21) (.v 22),
   .mul 22 x (.v 23),
   .shuf 23 (.v 22) (.v 22) 1,
   .sub 23 (.v 22) (.v 23),
   .shuf 24 (.v 24) (.v 23) 2,
   .add z (.v z) (.v 24)]

/-- `CONJMADD`, SSE3: lib/scalarsite_sse/sse_linalg_m_eq_hm_double.cc:63-73 -/
def hmCONJMADD3 (z : Nat) (x y : Reg) : List Ins :=
  [.mul 21 x y,
   .hadd 21 (.v 21) (.v 21),
   .shuf 22 x x 1,
   .mul 22 y (.v 22),
   .hsub 22 (.v 22) (.v 22),
   .shuf 21 (.v 21) (.v 22) 2,
   .add z (.v z) (.v 21)]

/-- the macro as compiled -/
def hmCONJMADD (sse3 : Bool) (z : Nat) (x y : Reg) : List Ins := if sse3 then hmCONJMADD3 z x y else hmCONJMADD2 z x y

/-- `ssed_m_eq_hm_u(m3, m2, m1, n_mat)`: lib/scalarsite_sse/sse_linalg_m_eq_hm_double.cc:83-196; parameters 0, 1, 2 are `m3`, `m2`, `m1` -/
def ssed_m_eq_hm_u : Kern where
  pre := []
  body := fun s =>
    List.flatten [
      [.ld 3 1 0, .ld 4 1 6, .ld 5 1 12, .ld 0 2 0, .ld 1 2 2, .ld 2 2 4],
      hmCONJMUL s 6 (.v 0) (.v 3),
      [.ld 0 2 6],
      hmCONJMUL s 7 (.v 1) (.v 3),
      [.ld 1 2 8],
      hmCONJMUL s 8 (.v 2) (.v 3),
      [.ld 2 2 10],
      hmCONJMADD s 6 (.v 0) (.v 4),
      [.ld 0 2 12],
      hmCONJMADD s 7 (.v 1) (.v 4),
      [.ld 1 2 14],
      hmCONJMADD s 8 (.v 2) (.v 4),
      [.ld 2 2 16],
      hmCONJMADD s 6 (.v 0) (.v 5),
      [.st 0 0 (.v 6)],
      hmCONJMADD s 7 (.v 1) (.v 5),
      [.st 0 2 (.v 7)],
      hmCONJMADD s 8 (.v 2) (.v 5),
      [.st 0 4 (.v 8), .ld 3 1 2, .ld 4 1 8, .ld 5 1 14, .ld 0 2 0, .ld 1 2 2, .ld 2 2 4],
      hmCONJMUL s 6 (.v 0) (.v 3),
      [.ld 0 2 6],
      hmCONJMUL s 7 (.v 1) (.v 3),
      [.ld 1 2 8],
      hmCONJMUL s 8 (.v 2) (.v 3),
      [.ld 2 2 10],
      hmCONJMADD s 6 (.v 0) (.v 4),
      [.ld 0 2 12],
      hmCONJMADD s 7 (.v 1) (.v 4),
      [.ld 1 2 14],
      hmCONJMADD s 8 (.v 2) (.v 4),
      [.ld 2 2 16],
      hmCONJMADD s 6 (.v 0) (.v 5),
      [.st 0 6 (.v 6)],
      hmCONJMADD s 7 (.v 1) (.v 5),
      [.st 0 8 (.v 7)],
      hmCONJMADD s 8 (.v 2) (.v 5),
      [.st 0 10 (.v 8), .ld 3 1 4, .ld 4 1 10, .ld 5 1 16, .ld 0 2 0, .ld 1 2 2, .ld 2 2 4],
      hmCONJMUL s 6 (.v 0) (.v 3),
      [.ld 0 2 6],
      hmCONJMUL s 7 (.v 1) (.v 3),
      [.ld 1 2 8],
      hmCONJMUL s 8 (.v 2) (.v 3),
      [.ld 2 2 10],
      hmCONJMADD s 6 (.v 0) (.v 4),
      [.ld 0 2 12],
      hmCONJMADD s 7 (.v 1) (.v 4),
      [.ld 1 2 14],
      hmCONJMADD s 8 (.v 2) (.v 4),
      [.ld 2 2 16],
      hmCONJMADD s 6 (.v 0) (.v 5),
      [.st 0 12 (.v 6)],
      hmCONJMADD s 7 (.v 1) (.v 5),
      [.st 0 14 (.v 7)],
      hmCONJMADD s 8 (.v 2) (.v 5),
      [.st 0 16 (.v 8)]]

/-- `ssed_m_peq_ahm_u(m3, a, m2, m1, n_mat)`: lib/scalarsite_sse/sse_linalg_m_eq_hm_double.cc:199-362; parameters 0, 1, 2 are `m3`, `m2`, `m1` -/
def ssed_m_peq_ahm_u : Kern where
  pre := [.sd 0, .zero 10, .shuf 10 (.v 0) (.v 0) 1, .add 0 (.v 0) (.v 10)]
  body := fun s =>
    List.flatten [
      [.ld 3 0 0, .ld 4 0 2, .ld 5 0 4, .ld 0 1 0, .ld 1 1 6, .ld 2 1 12, .ld 9 2 0, .ld 10 2 2, .ld 11 2 4],
      hmCONJMUL s 6 (.v 9) (.v 0),
      [.ld 9 2 6],
      hmCONJMUL s 7 (.v 10) (.v 0),
      [.ld 10 2 8],
      hmCONJMUL s 8 (.v 11) (.v 0),
      [.ld 11 2 10],
      hmCONJMADD s 6 (.v 9) (.v 1),
      [.ld 9 2 12],
      hmCONJMADD s 7 (.v 10) (.v 1),
      [.ld 10 2 14],
      hmCONJMADD s 8 (.v 11) (.v 1),
      [.ld 11 2 16],
      hmCONJMADD s 6 (.v 9) (.v 2),
      hmCONJMADD s 7 (.v 10) (.v 2),
      hmCONJMADD s 8 (.v 11) (.v 2),
      [.mul 6 (.c 0) (.v 6), .add 6 (.v 3) (.v 6), .mul 7 (.c 0) (.v 7), .add 7 (.v 4) (.v 7), .mul 8 (.c 0) (.v 8), .add 8 (.v 5) (.v 8), .st 0 0 (.v 6), .st 0 2 (.v 7), .st 0 4 (.v 8), .ld 3 0 6, .ld 4 0 8, .ld 5 0 10, .ld 0 1 2, .ld 1 1 8, .ld 2 1 14, .ld 9 2 0, .ld 10 2 2, .ld 11 2 4],
      hmCONJMUL s 6 (.v 9) (.v 0),
      [.ld 9 2 6],
      hmCONJMUL s 7 (.v 10) (.v 0),
      [.ld 10 2 8],
      hmCONJMUL s 8 (.v 11) (.v 0),
      [.ld 11 2 10],
      hmCONJMADD s 6 (.v 9) (.v 1),
      [.ld 9 2 12],
      hmCONJMADD s 7 (.v 10) (.v 1),
      [.ld 10 2 14],
      hmCONJMADD s 8 (.v 11) (.v 1),
      [.ld 11 2 16],
      hmCONJMADD s 6 (.v 9) (.v 2),
      hmCONJMADD s 7 (.v 10) (.v 2),
      hmCONJMADD s 8 (.v 11) (.v 2),
      [.mul 6 (.c 0) (.v 6), .add 6 (.v 3) (.v 6), .mul 7 (.c 0) (.v 7), .add 7 (.v 4) (.v 7), .mul 8 (.c 0) (.v 8), .add 8 (.v 5) (.v 8), .st 0 6 (.v 6), .st 0 8 (.v 7), .st 0 10 (.v 8), .ld 3 0 12, .ld 4 0 14, .ld 5 0 16, .ld 0 1 4, .ld 1 1 10, .ld 2 1 16, .ld 9 2 0, .ld 10 2 2, .ld 11 2 4],
      hmCONJMUL s 6 (.v 9) (.v 0),
      [.ld 9 2 6],
      hmCONJMUL s 7 (.v 10) (.v 0),
      [.ld 10 2 8],
      hmCONJMUL s 8 (.v 11) (.v 0),
      [.ld 11 2 10],
      hmCONJMADD s 6 (.v 9) (.v 1),
      [.ld 9 2 12],
      hmCONJMADD s 7 (.v 10) (.v 1),
      [.ld 10 2 14],
      hmCONJMADD s 8 (.v 11) (.v 1),
      [.ld 11 2 16],
      hmCONJMADD s 6 (.v 9) (.v 2),
      hmCONJMADD s 7 (.v 10) (.v 2),
      hmCONJMADD s 8 (.v 11) (.v 2),
      [.mul 6 (.c 0) (.v 6), .add 6 (.v 3) (.v 6), .mul 7 (.c 0) (.v 7), .add 7 (.v 4) (.v 7), .mul 8 (.c 0) (.v 8), .add 8 (.v 5) (.v 8), .st 0 12 (.v 6), .st 0 14 (.v 7), .st 0 16 (.v 8)]]

/-- `ssed_m_eq_hm(m3, m2, m1, n_mat)`: lib/scalarsite_sse/sse_linalg_m_eq_hm_double.cc:368-481; parameters 0, 1, 2 are `m3`, `m2`, `m1` -/
def ssed_m_eq_hm : Kern where
  pre := []
  body := fun s =>
    List.flatten [
      [.ld 3 1 0, .ld 4 1 6, .ld 5 1 12, .ld 0 2 0, .ld 1 2 2, .ld 2 2 4],
      hmCONJMUL s 6 (.v 0) (.v 3),
      [.ld 0 2 6],
      hmCONJMUL s 7 (.v 1) (.v 3),
      [.ld 1 2 8],
      hmCONJMUL s 8 (.v 2) (.v 3),
      [.ld 2 2 10],
      hmCONJMADD s 6 (.v 0) (.v 4),
      [.ld 0 2 12],
      hmCONJMADD s 7 (.v 1) (.v 4),
      [.ld 1 2 14],
      hmCONJMADD s 8 (.v 2) (.v 4),
      [.ld 2 2 16],
      hmCONJMADD s 6 (.v 0) (.v 5),
      [.st 0 0 (.v 6)],
      hmCONJMADD s 7 (.v 1) (.v 5),
      [.st 0 2 (.v 7)],
      hmCONJMADD s 8 (.v 2) (.v 5),
      [.st 0 4 (.v 8), .ld 3 1 2, .ld 4 1 8, .ld 5 1 14, .ld 0 2 0, .ld 1 2 2, .ld 2 2 4],
      hmCONJMUL s 6 (.v 0) (.v 3),
      [.ld 0 2 6],
      hmCONJMUL s 7 (.v 1) (.v 3),
      [.ld 1 2 8],
      hmCONJMUL s 8 (.v 2) (.v 3),
      [.ld 2 2 10],
      hmCONJMADD s 6 (.v 0) (.v 4),
      [.ld 0 2 12],
      hmCONJMADD s 7 (.v 1) (.v 4),
      [.ld 1 2 14],
      hmCONJMADD s 8 (.v 2) (.v 4),
      [.ld 2 2 16],
      hmCONJMADD s 6 (.v 0) (.v 5),
      [.st 0 6 (.v 6)],
      hmCONJMADD s 7 (.v 1) (.v 5),
      [.st 0 8 (.v 7)],
      hmCONJMADD s 8 (.v 2) (.v 5),
      [.st 0 10 (.v 8), .ld 3 1 4, .ld 4 1 10, .ld 5 1 16, .ld 0 2 0, .ld 1 2 2, .ld 2 2 4],
      hmCONJMUL s 6 (.v 0) (.v 3),
      [.ld 0 2 6],
      hmCONJMUL s 7 (.v 1) (.v 3),
      [.ld 1 2 8],
      hmCONJMUL s 8 (.v 2) (.v 3),
      [.ld 2 2 10],
      hmCONJMADD s 6 (.v 0) (.v 4),
      [.ld 0 2 12],
      hmCONJMADD s 7 (.v 1) (.v 4),
      [.ld 1 2 14],
      hmCONJMADD s 8 (.v 2) (.v 4),
      [.ld 2 2 16],
      hmCONJMADD s 6 (.v 0) (.v 5),
      [.st 0 12 (.v 6)],
      hmCONJMADD s 7 (.v 1) (.v 5),
      [.st 0 14 (.v 7)],
      hmCONJMADD s 8 (.v 2) (.v 5),
      [.st 0 16 (.v 8)]]

/-- `ssed_m_peq_ahm(m3, a, m2, m1, n_mat)`: lib/scalarsite_sse/sse_linalg_m_eq_hm_double.cc:484-647; parameters 0, 1, 2 are `m3`, `m2`, `m1` -/
def ssed_m_peq_ahm : Kern where
  pre := [.sd 0, .zero 10, .shuf 10 (.v 0) (.v 0) 1, .add 0 (.v 0) (.v 10)]
  body := fun s =>
    List.flatten [
      [.ld 3 0 0, .ld 4 0 2, .ld 5 0 4, .ld 0 1 0, .ld 1 1 6, .ld 2 1 12, .ld 9 2 0, .ld 10 2 2, .ld 11 2 4],
      hmCONJMUL s 6 (.v 9) (.v 0),
      [.ld 9 2 6],
      hmCONJMUL s 7 (.v 10) (.v 0),
      [.ld 10 2 8],
      hmCONJMUL s 8 (.v 11) (.v 0),
      [.ld 11 2 10],
      hmCONJMADD s 6 (.v 9) (.v 1),
      [.ld 9 2 12],
      hmCONJMADD s 7 (.v 10) (.v 1),
      [.ld 10 2 14],
      hmCONJMADD s 8 (.v 11) (.v 1),
      [.ld 11 2 16],
      hmCONJMADD s 6 (.v 9) (.v 2),
      hmCONJMADD s 7 (.v 10) (.v 2),
      hmCONJMADD s 8 (.v 11) (.v 2),
      [.mul 6 (.c 0) (.v 6), .add 6 (.v 3) (.v 6), .mul 7 (.c 0) (.v 7), .add 7 (.v 4) (.v 7), .mul 8 (.c 0) (.v 8), .add 8 (.v 5) (.v 8), .st 0 0 (.v 6), .st 0 2 (.v 7), .st 0 4 (.v 8), .ld 3 0 6, .ld 4 0 8, .ld 5 0 10, .ld 0 1 2, .ld 1 1 8, .ld 2 1 14, .ld 9 2 0, .ld 10 2 2, .ld 11 2 4],
      hmCONJMUL s 6 (.v 9) (.v 0),
      [.ld 9 2 6],
      hmCONJMUL s 7 (.v 10) (.v 0),
      [.ld 10 2 8],
      hmCONJMUL s 8 (.v 11) (.v 0),
      [.ld 11 2 10],
      hmCONJMADD s 6 (.v 9) (.v 1),
      [.ld 9 2 12],
      hmCONJMADD s 7 (.v 10) (.v 1),
      [.ld 10 2 14],
      hmCONJMADD s 8 (.v 11) (.v 1),
      [.ld 11 2 16],
      hmCONJMADD s 6 (.v 9) (.v 2),
      hmCONJMADD s 7 (.v 10) (.v 2),
      hmCONJMADD s 8 (.v 11) (.v 2),
      [.mul 6 (.c 0) (.v 6), .add 6 (.v 3) (.v 6), .mul 7 (.c 0) (.v 7), .add 7 (.v 4) (.v 7), .mul 8 (.c 0) (.v 8), .add 8 (.v 5) (.v 8), .st 0 6 (.v 6), .st 0 8 (.v 7), .st 0 10 (.v 8), .ld 3 0 12, .ld 4 0 14, .ld 5 0 16, .ld 0 1 4, .ld 1 1 10, .ld 2 1 16, .ld 9 2 0, .ld 10 2 2, .ld 11 2 4],
      hmCONJMUL s 6 (.v 9) (.v 0),
      [.ld 9 2 6],
      hmCONJMUL s 7 (.v 10) (.v 0),
      [.ld 10 2 8],
      hmCONJMUL s 8 (.v 11) (.v 0),
      [.ld 11 2 10],
      hmCONJMADD s 6 (.v 9) (.v 1),
      [.ld 9 2 12],
      hmCONJMADD s 7 (.v 10) (.v 1),
      [.ld 10 2 14],
      hmCONJMADD s 8 (.v 11) (.v 1),
      [.ld 11 2 16],
      hmCONJMADD s 6 (.v 9) (.v 2),
      hmCONJMADD s 7 (.v 10) (.v 2),
      hmCONJMADD s 8 (.v 11) (.v 2),
      [.mul 6 (.c 0) (.v 6), .add 6 (.v 3) (.v 6), .mul 7 (.c 0) (.v 7), .add 7 (.v 4) (.v 7), .mul 8 (.c 0) (.v 8), .add 8 (.v 5) (.v 8), .st 0 12 (.v 6), .st 0 14 (.v 7), .st 0 16 (.v 8)]]

/-! ### lib/scalarsite_sse/sse_linalg_m_eq_mh_double.cc -/

/-- `CONJMUL`, SSE2: lib/scalarsite_sse/sse_linalg_m_eq_mh_double.cc:20-31 -/
def mhCONJMUL2 (z : Nat) (x y : Reg) : List Ins :=
  [.mul 21 x y,
   .shuf 22 (.v 21) (.v 21) 1,
   .shuf 23 y y 1,
   .add z (.v 21) (.v 22),
   .mul 22 x (.v 23),
   .shuf 23 (.v 22) (.v 22) 1,
   .sub 23 (.v 22) (.v 23),
   .shuf z (.v z) (.v 23) 2]

/-- `CONJMUL`, SSE3: lib/scalarsite_sse/sse_linalg_m_eq_mh_double.cc:52-61 -/
def mhCONJMUL3 (z : Nat) (x y : Reg) : List Ins :=
  [.mul 21 x y,
   .hadd z (.v 21) (.v 21),
   .shuf 21 x x 1,
   .mul 21 y (.v 21),
   .hsub 21 (.v 21) (.v 21),
   .shuf z (.v z) (.v 21) 2]

/-- the macro as compiled -/
def mhCONJMUL (sse3 : Bool) (z : Nat) (x y : Reg) : List Ins := if sse3 then mhCONJMUL3 z x y else mhCONJMUL2 z x y

/-- `CONJMADD`, SSE2: lib/scalarsite_sse/sse_linalg_m_eq_mh_double.cc:33-45 -/
def mhCONJMADD2 (z : Nat) (x y : Reg) : List Ins :=
  [.mul 21 x y,
   .shuf 22 (.v 21) (.v 21) 1,
   .shuf 23 y y 1,
   .add 24 (.v 21) (.v 22),
   .mul 22 x (.v 23),
   .shuf 23 (.v 22) (.v 22) 1,
   .sub 23 (.v 22) (.v 23),
   .shuf 24 (.v 24) (.v 23) 2,
   .add z (.v z) (.v 24)]

/-- `CONJMADD`, SSE3: lib/scalarsite_sse/sse_linalg_m_eq_mh_double.cc:63-73 -/
def mhCONJMADD3 (z : Nat) (x y : Reg) : List Ins :=
  [.mul 21 x y,
   .hadd 21 (.v 21) (.v 21),
   .shuf 22 x x 1,
   .mul 22 y (.v 22),
   .hsub 22 (.v 22) (.v 22),
   .shuf 21 (.v 21) (.v 22) 2,
   .add z (.v z) (.v 21)]

/-- the macro as compiled -/
def mhCONJMADD (sse3 : Bool) (z : Nat) (x y : Reg) : List Ins := if sse3 then mhCONJMADD3 z x y else mhCONJMADD2 z x y

/-- `ssed_m_eq_mh_u(m3, m2, m1, n_mat)`: lib/scalarsite_sse/sse_linalg_m_eq_mh_double.cc:81-227; parameters 0, 1, 2 are `m3`, `m2`, `m1` -/
def ssed_m_eq_mh_u : Kern where
  pre := []
  body := fun s =>
    List.flatten [
      [.ld 3 1 0, .ld 4 1 2, .ld 5 1 4, .ld 0 2 0, .ld 1 2 2, .ld 2 2 4],
      mhCONJMUL s 6 (.v 3) (.v 0),
      [.ld 0 2 6],
      mhCONJMADD s 6 (.v 4) (.v 1),
      [.ld 1 2 8],
      mhCONJMADD s 6 (.v 5) (.v 2),
      [.ld 2 2 10, .st 0 0 (.v 6)],
      mhCONJMUL s 6 (.v 3) (.v 0),
      [.ld 0 2 12],
      mhCONJMADD s 6 (.v 4) (.v 1),
      [.ld 1 2 14],
      mhCONJMADD s 6 (.v 5) (.v 2),
      [.ld 2 2 16, .st 0 2 (.v 6)],
      mhCONJMUL s 6 (.v 3) (.v 0),
      [.ld 3 1 6],
      mhCONJMADD s 6 (.v 4) (.v 1),
      [.ld 4 1 8],
      mhCONJMADD s 6 (.v 5) (.v 2),
      [.ld 5 1 10, .st 0 4 (.v 6), .ld 0 2 0, .ld 1 2 2, .ld 2 2 4],
      mhCONJMUL s 6 (.v 3) (.v 0),
      [.ld 0 2 6],
      mhCONJMADD s 6 (.v 4) (.v 1),
      [.ld 1 2 8],
      mhCONJMADD s 6 (.v 5) (.v 2),
      [.ld 2 2 10, .st 0 6 (.v 6)],
      mhCONJMUL s 6 (.v 3) (.v 0),
      [.ld 0 2 12],
      mhCONJMADD s 6 (.v 4) (.v 1),
      [.ld 1 2 14],
      mhCONJMADD s 6 (.v 5) (.v 2),
      [.ld 2 2 16, .st 0 8 (.v 6)],
      mhCONJMUL s 6 (.v 3) (.v 0),
      [.ld 3 1 12],
      mhCONJMADD s 6 (.v 4) (.v 1),
      [.ld 4 1 14],
      mhCONJMADD s 6 (.v 5) (.v 2),
      [.ld 5 1 16, .st 0 10 (.v 6), .ld 0 2 0, .ld 1 2 2, .ld 2 2 4],
      mhCONJMUL s 6 (.v 3) (.v 0),
      [.ld 0 2 6],
      mhCONJMADD s 6 (.v 4) (.v 1),
      [.ld 1 2 8],
      mhCONJMADD s 6 (.v 5) (.v 2),
      [.ld 2 2 10, .st 0 12 (.v 6)],
      mhCONJMUL s 6 (.v 3) (.v 0),
      [.ld 0 2 12],
      mhCONJMADD s 6 (.v 4) (.v 1),
      [.ld 1 2 14],
      mhCONJMADD s 6 (.v 5) (.v 2),
      [.ld 2 2 16, .st 0 14 (.v 6)],
      mhCONJMUL s 6 (.v 3) (.v 0),
      mhCONJMADD s 6 (.v 4) (.v 1),
      mhCONJMADD s 6 (.v 5) (.v 2),
      [.st 0 16 (.v 6)]]

/-- `ssed_m_peq_amh_u(m3, a, m2, m1, n_mat)`: lib/scalarsite_sse/sse_linalg_m_eq_mh_double.cc:230-408; parameters 0, 1, 2 are `m3`, `m2`, `m1` -/
def ssed_m_peq_amh_u : Kern where
  pre := [.sd 0, .zero 8, .shuf 8 (.v 0) (.v 0) 1, .add 0 (.v 0) (.v 8)]
  body := fun s =>
    List.flatten [
      [.ld 3 1 0, .mul 3 (.c 0) (.v 3), .ld 4 1 2, .mul 4 (.c 0) (.v 4), .ld 5 1 4, .mul 5 (.c 0) (.v 5), .ld 7 0 0, .ld 0 2 0, .ld 1 2 2, .ld 2 2 4],
      mhCONJMUL s 6 (.v 3) (.v 0),
      [.ld 0 2 6],
      mhCONJMADD s 6 (.v 4) (.v 1),
      [.ld 1 2 8],
      mhCONJMADD s 6 (.v 5) (.v 2),
      [.ld 2 2 10, .add 7 (.v 7) (.v 6), .st 0 0 (.v 7), .ld 8 0 2],
      mhCONJMUL s 6 (.v 3) (.v 0),
      [.ld 0 2 12],
      mhCONJMADD s 6 (.v 4) (.v 1),
      [.ld 1 2 14],
      mhCONJMADD s 6 (.v 5) (.v 2),
      [.ld 2 2 16, .add 8 (.v 8) (.v 6), .st 0 2 (.v 8), .ld 7 0 4],
      mhCONJMUL s 6 (.v 3) (.v 0),
      [.ld 3 1 6, .mul 3 (.c 0) (.v 3)],
      mhCONJMADD s 6 (.v 4) (.v 1),
      [.ld 4 1 8, .mul 4 (.c 0) (.v 4)],
      mhCONJMADD s 6 (.v 5) (.v 2),
      [.ld 5 1 10, .mul 5 (.c 0) (.v 5), .add 7 (.v 7) (.v 6), .st 0 4 (.v 7), .ld 8 0 6, .ld 0 2 0, .ld 1 2 2, .ld 2 2 4],
      mhCONJMUL s 6 (.v 3) (.v 0),
      [.ld 0 2 6],
      mhCONJMADD s 6 (.v 4) (.v 1),
      [.ld 1 2 8],
      mhCONJMADD s 6 (.v 5) (.v 2),
      [.ld 2 2 10, .add 8 (.v 8) (.v 6), .st 0 6 (.v 8), .ld 7 0 8],
      mhCONJMUL s 6 (.v 3) (.v 0),
      [.ld 0 2 12],
      mhCONJMADD s 6 (.v 4) (.v 1),
      [.ld 1 2 14],
      mhCONJMADD s 6 (.v 5) (.v 2),
      [.ld 2 2 16, .add 7 (.v 7) (.v 6), .st 0 8 (.v 7), .ld 8 0 10],
      mhCONJMUL s 6 (.v 3) (.v 0),
      [.ld 3 1 12, .mul 3 (.c 0) (.v 3)],
      mhCONJMADD s 6 (.v 4) (.v 1),
      [.ld 4 1 14, .mul 4 (.c 0) (.v 4)],
      mhCONJMADD s 6 (.v 5) (.v 2),
      [.ld 5 1 16, .mul 5 (.c 0) (.v 5), .add 8 (.v 8) (.v 6), .st 0 10 (.v 8), .ld 7 0 12, .ld 0 2 0, .ld 1 2 2, .ld 2 2 4],
      mhCONJMUL s 6 (.v 3) (.v 0),
      [.ld 0 2 6],
      mhCONJMADD s 6 (.v 4) (.v 1),
      [.ld 1 2 8],
      mhCONJMADD s 6 (.v 5) (.v 2),
      [.ld 2 2 10, .add 7 (.v 7) (.v 6), .st 0 12 (.v 7), .ld 8 0 14, .ld 7 0 16],
      mhCONJMUL s 6 (.v 3) (.v 0),
      [.ld 0 2 12],
      mhCONJMADD s 6 (.v 4) (.v 1),
      [.ld 1 2 14],
      mhCONJMADD s 6 (.v 5) (.v 2),
      [.ld 2 2 16, .add 8 (.v 8) (.v 6), .st 0 14 (.v 8)],
      mhCONJMUL s 6 (.v 3) (.v 0),
      mhCONJMADD s 6 (.v 4) (.v 1),
      mhCONJMADD s 6 (.v 5) (.v 2),
      [.add 7 (.v 7) (.v 6), .st 0 16 (.v 7)]]

/-- `ssed_m_eq_mh(m3, m2, m1, n_mat)`: lib/scalarsite_sse/sse_linalg_m_eq_mh_double.cc:414-560; parameters 0, 1, 2 are `m3`, `m2`, `m1` -/
def ssed_m_eq_mh : Kern where
  pre := []
  body := fun s =>
    List.flatten [
      [.ld 3 1 0, .ld 4 1 2, .ld 5 1 4, .ld 0 2 0, .ld 1 2 2, .ld 2 2 4],
      mhCONJMUL s 6 (.v 3) (.v 0),
      [.ld 0 2 6],
      mhCONJMADD s 6 (.v 4) (.v 1),
      [.ld 1 2 8],
      mhCONJMADD s 6 (.v 5) (.v 2),
      [.ld 2 2 10, .st 0 0 (.v 6)],
      mhCONJMUL s 6 (.v 3) (.v 0),
      [.ld 0 2 12],
      mhCONJMADD s 6 (.v 4) (.v 1),
      [.ld 1 2 14],
      mhCONJMADD s 6 (.v 5) (.v 2),
      [.ld 2 2 16, .st 0 2 (.v 6)],
      mhCONJMUL s 6 (.v 3) (.v 0),
      [.ld 3 1 6],
      mhCONJMADD s 6 (.v 4) (.v 1),
      [.ld 4 1 8],
      mhCONJMADD s 6 (.v 5) (.v 2),
      [.ld 5 1 10, .st 0 4 (.v 6), .ld 0 2 0, .ld 1 2 2, .ld 2 2 4],
      mhCONJMUL s 6 (.v 3) (.v 0),
      [.ld 0 2 6],
      mhCONJMADD s 6 (.v 4) (.v 1),
      [.ld 1 2 8],
      mhCONJMADD s 6 (.v 5) (.v 2),
      [.ld 2 2 10, .st 0 6 (.v 6)],
      mhCONJMUL s 6 (.v 3) (.v 0),
      [.ld 0 2 12],
      mhCONJMADD s 6 (.v 4) (.v 1),
      [.ld 1 2 14],
      mhCONJMADD s 6 (.v 5) (.v 2),
      [.ld 2 2 16, .st 0 8 (.v 6)],
      mhCONJMUL s 6 (.v 3) (.v 0),
      [.ld 3 1 12],
      mhCONJMADD s 6 (.v 4) (.v 1),
      [.ld 4 1 14],
      mhCONJMADD s 6 (.v 5) (.v 2),
      [.ld 5 1 16, .st 0 10 (.v 6), .ld 0 2 0, .ld 1 2 2, .ld 2 2 4],
      mhCONJMUL s 6 (.v 3) (.v 0),
      [.ld 0 2 6],
      mhCONJMADD s 6 (.v 4) (.v 1),
      [.ld 1 2 8],
      mhCONJMADD s 6 (.v 5) (.v 2),
      [.ld 2 2 10, .st 0 12 (.v 6)],
      mhCONJMUL s 6 (.v 3) (.v 0),
      [.ld 0 2 12],
      mhCONJMADD s 6 (.v 4) (.v 1),
      [.ld 1 2 14],
      mhCONJMADD s 6 (.v 5) (.v 2),
      [.ld 2 2 16, .st 0 14 (.v 6)],
      mhCONJMUL s 6 (.v 3) (.v 0),
      mhCONJMADD s 6 (.v 4) (.v 1),
      mhCONJMADD s 6 (.v 5) (.v 2),
      [.st 0 16 (.v 6)]]

/-- `ssed_m_peq_amh(m3, a, m2, m1, n_mat)`: lib/scalarsite_sse/sse_linalg_m_eq_mh_double.cc:563-741; parameters 0, 1, 2 are `m3`, `m2`, `m1` -/
def ssed_m_peq_amh : Kern where
  pre := [.sd 0, .zero 8, .shuf 8 (.v 0) (.v 0) 1, .add 0 (.v 0) (.v 8)]
  body := fun s =>
    List.flatten [
      [.ld 3 1 0, .mul 3 (.c 0) (.v 3), .ld 4 1 2, .mul 4 (.c 0) (.v 4), .ld 5 1 4, .mul 5 (.c 0) (.v 5), .ld 7 0 0, .ld 0 2 0, .ld 1 2 2, .ld 2 2 4],
      mhCONJMUL s 6 (.v 3) (.v 0),
      [.ld 0 2 6],
      mhCONJMADD s 6 (.v 4) (.v 1),
      [.ld 1 2 8],
      mhCONJMADD s 6 (.v 5) (.v 2),
      [.ld 2 2 10, .add 7 (.v 7) (.v 6), .st 0 0 (.v 7), .ld 8 0 2],
      mhCONJMUL s 6 (.v 3) (.v 0),
      [.ld 0 2 12],
      mhCONJMADD s 6 (.v 4) (.v 1),
      [.ld 1 2 14],
      mhCONJMADD s 6 (.v 5) (.v 2),
      [.ld 2 2 16, .add 8 (.v 8) (.v 6), .st 0 2 (.v 8), .ld 7 0 4],
      mhCONJMUL s 6 (.v 3) (.v 0),
      [.ld 3 1 6, .mul 3 (.c 0) (.v 3)],
      mhCONJMADD s 6 (.v 4) (.v 1),
      [.ld 4 1 8, .mul 4 (.c 0) (.v 4)],
      mhCONJMADD s 6 (.v 5) (.v 2),
      [.ld 5 1 10, .mul 5 (.c 0) (.v 5), .add 7 (.v 7) (.v 6), .st 0 4 (.v 7), .ld 8 0 6, .ld 0 2 0, .ld 1 2 2, .ld 2 2 4],
      mhCONJMUL s 6 (.v 3) (.v 0),
      [.ld 0 2 6],
      mhCONJMADD s 6 (.v 4) (.v 1),
      [.ld 1 2 8],
      mhCONJMADD s 6 (.v 5) (.v 2),
      [.ld 2 2 10, .add 8 (.v 8) (.v 6), .st 0 6 (.v 8), .ld 7 0 8],
      mhCONJMUL s 6 (.v 3) (.v 0),
      [.ld 0 2 12],
      mhCONJMADD s 6 (.v 4) (.v 1),
      [.ld 1 2 14],
      mhCONJMADD s 6 (.v 5) (.v 2),
      [.ld 2 2 16, .add 7 (.v 7) (.v 6), .st 0 8 (.v 7), .ld 8 0 10],
      mhCONJMUL s 6 (.v 3) (.v 0),
      [.ld 3 1 12, .mul 3 (.c 0) (.v 3)],
      mhCONJMADD s 6 (.v 4) (.v 1),
      [.ld 4 1 14, .mul 4 (.c 0) (.v 4)],
      mhCONJMADD s 6 (.v 5) (.v 2),
      [.ld 5 1 16, .mul 5 (.c 0) (.v 5), .add 8 (.v 8) (.v 6), .st 0 10 (.v 8), .ld 7 0 12, .ld 0 2 0, .ld 1 2 2, .ld 2 2 4],
      mhCONJMUL s 6 (.v 3) (.v 0),
      [.ld 0 2 6],
      mhCONJMADD s 6 (.v 4) (.v 1),
      [.ld 1 2 8],
      mhCONJMADD s 6 (.v 5) (.v 2),
      [.ld 2 2 10, .add 7 (.v 7) (.v 6), .st 0 12 (.v 7), .ld 8 0 14, .ld 7 0 16],
      mhCONJMUL s 6 (.v 3) (.v 0),
      [.ld 0 2 12],
      mhCONJMADD s 6 (.v 4) (.v 1),
      [.ld 1 2 14],
      mhCONJMADD s 6 (.v 5) (.v 2),
      [.ld 2 2 16, .add 8 (.v 8) (.v 6), .st 0 14 (.v 8)],
      mhCONJMUL s 6 (.v 3) (.v 0),
      mhCONJMADD s 6 (.v 4) (.v 1),
      mhCONJMADD s 6 (.v 5) (.v 2),
      [.add 7 (.v 7) (.v 6), .st 0 16 (.v 7)]]

/-! ### lib/scalarsite_sse/sse_linalg_m_eq_hh_double.cc -/

/-- `CCMUL`, SSE2: lib/scalarsite_sse/sse_linalg_m_eq_hh_double.cc:25-38 -/
def hhCCMUL2 (z : Nat) (x y : Reg) : List Ins :=
  [.sgn 24,
   .mul 21 x y,
   .shuf 22 (.v 21) (.v 21) 1,
   .shuf 23 y y 1,
   .sub z (.v 21) (.v 22),
   .mul 22 x (.v 23),
   .shuf 23 (.v 22) (.v 22) 1,
   .add 23 (.v 22) (.v 23),
   .shuf z (.v z) (.v 23) 2,
   .mul z (.v z) (.v 24)]

/-- `CCMUL`, SSE3: lib/scalarsite_sse/sse_linalg_m_eq_hh_double.cc:60-71 -/
def hhCCMUL3 (z : Nat) (x y : Reg) : List Ins :=
  [.sgn 22,
   .mul 21 x y,
   .hsub z (.v 21) (.v 21),
   .shuf 21 y y 1,
   .mul 21 x (.v 21),
   .hadd 21 (.v 21) (.v 21),
   .shuf z (.v z) (.v 21) 2,
   .mul z (.v z) (.v 22)]

/-- the macro as compiled -/
def hhCCMUL (sse3 : Bool) (z : Nat) (x y : Reg) : List Ins := if sse3 then hhCCMUL3 z x y else hhCCMUL2 z x y

/-- `CCMADD`, SSE2: lib/scalarsite_sse/sse_linalg_m_eq_hh_double.cc:40-54 -/
def hhCCMADD2 (z : Nat) (x y : Reg) : List Ins :=
  [.sgn 25,
   .mul 21 x y,
   .shuf 22 (.v 21) (.v 21) 1,
   .shuf 23 y y 1,
   .sub 24 (.v 21) (.v 22),
   .mul 22 x (.v 23),
   .shuf 23 (.v 22) (.v 22) 1,
   .add 23 (.v 22) (.v 23),
   .shuf 24 (.v 24) (.v 23) 2,
   .mul 24 (.v 25) (.v 24),
   .add z (.v z) (.v 24)]

/-- `CCMADD`, SSE3: lib/scalarsite_sse/sse_linalg_m_eq_hh_double.cc:72-84 -/
def hhCCMADD3 (z : Nat) (x y : Reg) : List Ins :=
  [.sgn 23,
   .mul 21 x y,
   .hsub 21 (.v 21) (.v 21),
   .shuf 22 y y 1,
   .mul 22 x (.v 22),
   .hadd 22 (.v 22) (.v 22),
   .shuf 21 (.v 21) (.v 22) 2,
   .mul 21 (.v 23) (.v 21),
   .add z (.v z) (.v 21)]

/-- the macro as compiled -/
def hhCCMADD (sse3 : Bool) (z : Nat) (x y : Reg) : List Ins := if sse3 then hhCCMADD3 z x y else hhCCMADD2 z x y

/-- `ssed_m_eq_hh_u(m3, m2, m1, n_mat)`: lib/scalarsite_sse/sse_linalg_m_eq_hh_double.cc:91-210; parameters 0, 1, 2 are `m3`, `m2`, `m1` -/
def ssed_m_eq_hh_u : Kern where
  pre := []
  body := fun s =>
    List.flatten [
      [.ld 0 2 0, .ld 1 2 2, .ld 2 2 4, .ld 3 1 0, .ld 4 1 6, .ld 5 1 12],
      hhCCMUL s 6 (.v 3) (.v 0),
      [.ld 0 2 6],
      hhCCMADD s 6 (.v 4) (.v 1),
      [.ld 1 2 8],
      hhCCMADD s 6 (.v 5) (.v 2),
      [.ld 2 2 10],
      hhCCMUL s 7 (.v 3) (.v 0),
      [.ld 0 2 12],
      hhCCMADD s 7 (.v 4) (.v 1),
      [.ld 1 2 14],
      hhCCMADD s 7 (.v 5) (.v 2),
      [.ld 2 2 16],
      hhCCMUL s 8 (.v 3) (.v 0),
      [.ld 3 1 2],
      hhCCMADD s 8 (.v 4) (.v 1),
      [.ld 4 1 8],
      hhCCMADD s 8 (.v 5) (.v 2),
      [.ld 5 1 14, .st 0 0 (.v 6), .st 0 2 (.v 7), .st 0 4 (.v 8), .ld 0 2 0, .ld 1 2 2, .ld 2 2 4],
      hhCCMUL s 6 (.v 3) (.v 0),
      [.ld 0 2 6],
      hhCCMADD s 6 (.v 4) (.v 1),
      [.ld 1 2 8],
      hhCCMADD s 6 (.v 5) (.v 2),
      [.ld 2 2 10],
      hhCCMUL s 7 (.v 3) (.v 0),
      [.ld 0 2 12],
      hhCCMADD s 7 (.v 4) (.v 1),
      [.ld 1 2 14],
      hhCCMADD s 7 (.v 5) (.v 2),
      [.ld 2 2 16],
      hhCCMUL s 8 (.v 3) (.v 0),
      [.ld 3 1 4],
      hhCCMADD s 8 (.v 4) (.v 1),
      [.ld 4 1 10],
      hhCCMADD s 8 (.v 5) (.v 2),
      [.ld 5 1 16, .st 0 6 (.v 6), .st 0 8 (.v 7), .st 0 10 (.v 8), .ld 0 2 0, .ld 1 2 2, .ld 2 2 4],
      hhCCMUL s 6 (.v 3) (.v 0),
      [.ld 0 2 6],
      hhCCMADD s 6 (.v 4) (.v 1),
      [.ld 1 2 8],
      hhCCMADD s 6 (.v 5) (.v 2),
      [.ld 2 2 10],
      hhCCMUL s 7 (.v 3) (.v 0),
      [.ld 0 2 12],
      hhCCMADD s 7 (.v 4) (.v 1),
      [.ld 1 2 14],
      hhCCMADD s 7 (.v 5) (.v 2),
      [.ld 2 2 16],
      hhCCMUL s 8 (.v 3) (.v 0),
      hhCCMADD s 8 (.v 4) (.v 1),
      hhCCMADD s 8 (.v 5) (.v 2),
      [.st 0 12 (.v 6), .st 0 14 (.v 7), .st 0 16 (.v 8)]]

/-- `ssed_m_peq_ahh_u(m3, a, m2, m1, n_mat)`: lib/scalarsite_sse/sse_linalg_m_eq_hh_double.cc:213-393; parameters 0, 1, 2 are `m3`, `m2`, `m1` -/
def ssed_m_peq_ahh_u : Kern where
  pre := [.sd 0, .zero 13, .shuf 13 (.v 0) (.v 0) 1, .add 0 (.v 0) (.v 13)]
  body := fun s =>
    List.flatten [
      [.ld 0 2 0, .ld 1 2 2, .ld 2 2 4, .ld 3 1 0, .ld 4 1 6, .ld 5 1 12, .ld 9 0 0, .ld 10 0 2, .ld 11 0 4],
      hhCCMUL s 6 (.v 3) (.v 0),
      [.ld 0 2 6],
      hhCCMADD s 6 (.v 4) (.v 1),
      [.ld 1 2 8],
      hhCCMADD s 6 (.v 5) (.v 2),
      [.ld 2 2 10, .mul 6 (.c 0) (.v 6), .add 6 (.v 9) (.v 6)],
      hhCCMUL s 7 (.v 3) (.v 0),
      [.ld 0 2 12],
      hhCCMADD s 7 (.v 4) (.v 1),
      [.ld 1 2 14],
      hhCCMADD s 7 (.v 5) (.v 2),
      [.ld 2 2 16, .mul 7 (.c 0) (.v 7), .add 7 (.v 10) (.v 7)],
      hhCCMUL s 8 (.v 3) (.v 0),
      [.ld 3 1 2],
      hhCCMADD s 8 (.v 4) (.v 1),
      [.ld 4 1 8],
      hhCCMADD s 8 (.v 5) (.v 2),
      [.ld 5 1 14, .mul 8 (.c 0) (.v 8), .add 8 (.v 11) (.v 8), .st 0 0 (.v 6), .st 0 2 (.v 7), .st 0 4 (.v 8), .ld 9 0 6, .ld 10 0 8, .ld 11 0 10, .ld 0 2 0, .ld 1 2 2, .ld 2 2 4],
      hhCCMUL s 6 (.v 3) (.v 0),
      [.ld 0 2 6],
      hhCCMADD s 6 (.v 4) (.v 1),
      [.ld 1 2 8],
      hhCCMADD s 6 (.v 5) (.v 2),
      [.ld 2 2 10, .mul 6 (.c 0) (.v 6), .add 6 (.v 9) (.v 6)],
      hhCCMUL s 7 (.v 3) (.v 0),
      [.ld 0 2 12],
      hhCCMADD s 7 (.v 4) (.v 1),
      [.ld 1 2 14],
      hhCCMADD s 7 (.v 5) (.v 2),
      [.ld 2 2 16, .mul 7 (.c 0) (.v 7), .add 7 (.v 10) (.v 7)],
      hhCCMUL s 8 (.v 3) (.v 0),
      [.ld 3 1 4],
      hhCCMADD s 8 (.v 4) (.v 1),
      [.ld 4 1 10],
      hhCCMADD s 8 (.v 5) (.v 2),
      [.ld 5 1 16, .mul 8 (.c 0) (.v 8), .add 8 (.v 11) (.v 8), .st 0 6 (.v 6), .st 0 8 (.v 7), .st 0 10 (.v 8), .ld 9 0 12, .ld 10 0 14, .ld 11 0 16, .ld 0 2 0, .ld 1 2 2, .ld 2 2 4],
      hhCCMUL s 6 (.v 3) (.v 0),
      [.ld 0 2 6],
      hhCCMADD s 6 (.v 4) (.v 1),
      [.ld 1 2 8],
      hhCCMADD s 6 (.v 5) (.v 2),
      [.ld 2 2 10, .mul 6 (.c 0) (.v 6), .add 6 (.v 9) (.v 6)],
      hhCCMUL s 7 (.v 3) (.v 0),
      [.ld 0 2 12],
      hhCCMADD s 7 (.v 4) (.v 1),
      [.ld 1 2 14],
      hhCCMADD s 7 (.v 5) (.v 2),
      [.ld 2 2 16, .mul 7 (.c 0) (.v 7), .add 7 (.v 10) (.v 7)],
      hhCCMUL s 8 (.v 3) (.v 0),
      hhCCMADD s 8 (.v 4) (.v 1),
      hhCCMADD s 8 (.v 5) (.v 2),
      [.mul 8 (.c 0) (.v 8), .add 8 (.v 11) (.v 8), .st 0 12 (.v 6), .st 0 14 (.v 7), .st 0 16 (.v 8)]]

/-- `ssed_m_eq_hh(m3, m2, m1, n_mat)`: lib/scalarsite_sse/sse_linalg_m_eq_hh_double.cc:398-518; parameters 0, 1, 2 are `m3`, `m2`, `m1` -/
def ssed_m_eq_hh : Kern where
  pre := []
  body := fun s =>
    List.flatten [
      [.ld 0 2 0, .ld 1 2 2, .ld 2 2 4, .ld 3 1 0, .ld 4 1 6, .ld 5 1 12],
      hhCCMUL s 6 (.v 3) (.v 0),
      [.ld 0 2 6],
      hhCCMADD s 6 (.v 4) (.v 1),
      [.ld 1 2 8],
      hhCCMADD s 6 (.v 5) (.v 2),
      [.ld 2 2 10],
      hhCCMUL s 7 (.v 3) (.v 0),
      [.ld 0 2 12],
      hhCCMADD s 7 (.v 4) (.v 1),
      [.ld 1 2 14],
      hhCCMADD s 7 (.v 5) (.v 2),
      [.ld 2 2 16],
      hhCCMUL s 8 (.v 3) (.v 0),
      [.ld 3 1 2],
      hhCCMADD s 8 (.v 4) (.v 1),
      [.ld 4 1 8],
      hhCCMADD s 8 (.v 5) (.v 2),
      [.ld 5 1 14, .st 0 0 (.v 6), .st 0 2 (.v 7), .st 0 4 (.v 8), .ld 0 2 0, .ld 1 2 2, .ld 2 2 4],
      hhCCMUL s 6 (.v 3) (.v 0),
      [.ld 0 2 6],
      hhCCMADD s 6 (.v 4) (.v 1),
      [.ld 1 2 8],
      hhCCMADD s 6 (.v 5) (.v 2),
      [.ld 2 2 10],
      hhCCMUL s 7 (.v 3) (.v 0),
      [.ld 0 2 12],
      hhCCMADD s 7 (.v 4) (.v 1),
      [.ld 1 2 14],
      hhCCMADD s 7 (.v 5) (.v 2),
      [.ld 2 2 16],
      hhCCMUL s 8 (.v 3) (.v 0),
      [.ld 3 1 4],
      hhCCMADD s 8 (.v 4) (.v 1),
      [.ld 4 1 10],
      hhCCMADD s 8 (.v 5) (.v 2),
      [.ld 5 1 16, .st 0 6 (.v 6), .st 0 8 (.v 7), .st 0 10 (.v 8), .ld 0 2 0, .ld 1 2 2, .ld 2 2 4],
      hhCCMUL s 6 (.v 3) (.v 0),
      [.ld 0 2 6],
      hhCCMADD s 6 (.v 4) (.v 1),
      [.ld 1 2 8],
      hhCCMADD s 6 (.v 5) (.v 2),
      [.ld 2 2 10],
      hhCCMUL s 7 (.v 3) (.v 0),
      [.ld 0 2 12],
      hhCCMADD s 7 (.v 4) (.v 1),
      [.ld 1 2 14],
      hhCCMADD s 7 (.v 5) (.v 2),
      [.ld 2 2 16],
      hhCCMUL s 8 (.v 3) (.v 0),
      hhCCMADD s 8 (.v 4) (.v 1),
      hhCCMADD s 8 (.v 5) (.v 2),
      [.st 0 12 (.v 6), .st 0 14 (.v 7), .st 0 16 (.v 8)]]

/-- `ssed_m_peq_ahh(m3, a, m2, m1, n_mat)`: lib/scalarsite_sse/sse_linalg_m_eq_hh_double.cc:521-700; parameters 0, 1, 2 are `m3`, `m2`, `m1` -/
def ssed_m_peq_ahh : Kern where
  pre := [.sd 0, .zero 13, .shuf 13 (.v 0) (.v 0) 1, .add 0 (.v 0) (.v 13)]
  body := fun s =>
    List.flatten [
      [.ld 0 2 0, .ld 1 2 2, .ld 2 2 4, .ld 3 1 0, .ld 4 1 6, .ld 5 1 12, .ld 9 0 0, .ld 10 0 2, .ld 11 0 4],
      hhCCMUL s 6 (.v 3) (.v 0),
      [.ld 0 2 6],
      hhCCMADD s 6 (.v 4) (.v 1),
      [.ld 1 2 8],
      hhCCMADD s 6 (.v 5) (.v 2),
      [.ld 2 2 10, .mul 6 (.c 0) (.v 6), .add 6 (.v 9) (.v 6)],
      hhCCMUL s 7 (.v 3) (.v 0),
      [.ld 0 2 12],
      hhCCMADD s 7 (.v 4) (.v 1),
      [.ld 1 2 14],
      hhCCMADD s 7 (.v 5) (.v 2),
      [.ld 2 2 16, .mul 7 (.c 0) (.v 7), .add 7 (.v 10) (.v 7)],
      hhCCMUL s 8 (.v 3) (.v 0),
      [.ld 3 1 2],
      hhCCMADD s 8 (.v 4) (.v 1),
      [.ld 4 1 8],
      hhCCMADD s 8 (.v 5) (.v 2),
      [.ld 5 1 14, .mul 8 (.c 0) (.v 8), .add 8 (.v 11) (.v 8), .st 0 0 (.v 6), .st 0 2 (.v 7), .st 0 4 (.v 8), .ld 9 0 6, .ld 10 0 8, .ld 11 0 10, .ld 0 2 0, .ld 1 2 2, .ld 2 2 4],
      hhCCMUL s 6 (.v 3) (.v 0),
      [.ld 0 2 6],
      hhCCMADD s 6 (.v 4) (.v 1),
      [.ld 1 2 8],
      hhCCMADD s 6 (.v 5) (.v 2),
      [.ld 2 2 10, .mul 6 (.c 0) (.v 6), .add 6 (.v 9) (.v 6)],
      hhCCMUL s 7 (.v 3) (.v 0),
      [.ld 0 2 12],
      hhCCMADD s 7 (.v 4) (.v 1),
      [.ld 1 2 14],
      hhCCMADD s 7 (.v 5) (.v 2),
      [.ld 2 2 16, .mul 7 (.c 0) (.v 7), .add 7 (.v 10) (.v 7)],
      hhCCMUL s 8 (.v 3) (.v 0),
      [.ld 3 1 4],
      hhCCMADD s 8 (.v 4) (.v 1),
      [.ld 4 1 10],
      hhCCMADD s 8 (.v 5) (.v 2),
      [.ld 5 1 16, .mul 8 (.c 0) (.v 8), .add 8 (.v 11) (.v 8), .st 0 6 (.v 6), .st 0 8 (.v 7), .st 0 10 (.v 8), .ld 9 0 12, .ld 10 0 14, .ld 11 0 16, .ld 0 2 0, .ld 1 2 2, .ld 2 2 4],
      hhCCMUL s 6 (.v 3) (.v 0),
      [.ld 0 2 6],
      hhCCMADD s 6 (.v 4) (.v 1),
      [.ld 1 2 8],
      hhCCMADD s 6 (.v 5) (.v 2),
      [.ld 2 2 10, .mul 6 (.c 0) (.v 6), .add 6 (.v 9) (.v 6)],
      hhCCMUL s 7 (.v 3) (.v 0),
      [.ld 0 2 12],
      hhCCMADD s 7 (.v 4) (.v 1),
      [.ld 1 2 14],
      hhCCMADD s 7 (.v 5) (.v 2),
      [.ld 2 2 16, .mul 7 (.c 0) (.v 7), .add 7 (.v 10) (.v 7)],
      hhCCMUL s 8 (.v 3) (.v 0),
      hhCCMADD s 8 (.v 4) (.v 1),
      hhCCMADD s 8 (.v 5) (.v 2),
      [.mul 8 (.c 0) (.v 8), .add 8 (.v 11) (.v 8), .st 0 12 (.v 6), .st 0 14 (.v 7), .st 0 16 (.v 8)]]

/-! ### lib/scalarsite_sse/sse_linalg_m_eq_scal_m_double.cc -/

/-- `ssed_m_eq_scal_m(m2, a, m1, n_mat)`: lib/scalarsite_sse/sse_linalg_m_eq_scal_m_double.cc:14-86; parameters 0, 1, 2 are `m2`, `m1` -/
def ssed_m_eq_scal_m : Kern where
  pre := [.sd 0, .zero 1, .shuf 1 (.v 0) (.v 0) 1, .add 0 (.v 0) (.v 1)]
  body := fun s =>
    List.flatten [
      [.ld 0 1 0, .mul 1 (.c 0) (.v 0), .st 0 0 (.v 1), .ld 2 1 2, .mul 3 (.c 0) (.v 2), .st 0 2 (.v 3), .ld 4 1 4, .mul 5 (.c 0) (.v 4), .st 0 4 (.v 5), .ld 6 1 6, .mul 7 (.c 0) (.v 6), .st 0 6 (.v 7), .ld 8 1 8, .mul 9 (.c 0) (.v 8), .st 0 8 (.v 9), .ld 10 1 10, .mul 11 (.c 0) (.v 10), .st 0 10 (.v 11), .ld 12 1 12, .mul 13 (.c 0) (.v 12), .st 0 12 (.v 13), .ld 14 1 14, .mul 3 (.c 0) (.v 14), .st 0 14 (.v 3), .ld 4 1 16, .mul 5 (.c 0) (.v 4), .st 0 16 (.v 5)]]

/-- `ssed_m_muleq_scal(m, a, n_mat)`: lib/scalarsite_sse/sse_linalg_m_eq_scal_m_double.cc:89-160; parameters 0, 1, 2 are `m` -/
def ssed_m_muleq_scal : Kern where
  pre := [.sd 0, .zero 1, .shuf 1 (.v 0) (.v 0) 1, .add 0 (.v 0) (.v 1)]
  body := fun s =>
    List.flatten [
      [.ld 0 0 0, .mul 1 (.c 0) (.v 0), .st 0 0 (.v 1), .ld 2 0 2, .mul 3 (.c 0) (.v 2), .st 0 2 (.v 3), .ld 4 0 4, .mul 5 (.c 0) (.v 4), .st 0 4 (.v 5), .ld 6 0 6, .mul 7 (.c 0) (.v 6), .st 0 6 (.v 7), .ld 8 0 8, .mul 9 (.c 0) (.v 8), .st 0 8 (.v 9), .ld 10 0 10, .mul 11 (.c 0) (.v 10), .st 0 10 (.v 11), .ld 12 0 12, .mul 13 (.c 0) (.v 12), .st 0 12 (.v 13), .ld 14 0 14, .mul 3 (.c 0) (.v 14), .st 0 14 (.v 3), .ld 4 0 16, .mul 5 (.c 0) (.v 4), .st 0 16 (.v 5)]]

/-! ### lib/scalarsite_sse/sse_linalg_m_peq_m_double.cc -/

/-- `ssed_m_peq_m(m2, m1, n_mat)`: lib/scalarsite_sse/sse_linalg_m_peq_m_double.cc:20-92; parameters 0, 1, 2 are `m2`, `m1` -/
def ssed_m_peq_m : Kern where
  pre := []
  body := fun s =>
    List.flatten [
      [.ld 0 1 0, .ld 1 0 0, .add 2 (.v 0) (.v 1), .st 0 0 (.v 2), .ld 3 1 2, .ld 4 0 2, .add 5 (.v 3) (.v 4), .st 0 2 (.v 5), .ld 6 1 4, .ld 7 0 4, .add 8 (.v 6) (.v 7), .st 0 4 (.v 8), .ld 9 1 6, .ld 10 0 6, .add 11 (.v 9) (.v 10), .st 0 6 (.v 11), .ld 12 1 8, .ld 13 0 8, .add 14 (.v 12) (.v 13), .st 0 8 (.v 14), .ld 0 1 10, .ld 1 0 10, .add 2 (.v 0) (.v 1), .st 0 10 (.v 2), .ld 3 1 12, .ld 4 0 12, .add 5 (.v 3) (.v 4), .st 0 12 (.v 5), .ld 6 1 14, .ld 7 0 14, .add 8 (.v 6) (.v 7), .st 0 14 (.v 8), .ld 9 1 16, .ld 10 0 16, .add 11 (.v 9) (.v 10), .st 0 16 (.v 11)]]

/-- `ssed_m_meq_m(m2, m1, n_mat)`: lib/scalarsite_sse/sse_linalg_m_peq_m_double.cc:95-165; parameters 0, 1, 2 are `m2`, `m1` -/
def ssed_m_meq_m : Kern where
  pre := []
  body := fun s =>
    List.flatten [
      [.ld 0 1 0, .ld 1 0 0, .sub 2 (.v 1) (.v 0), .st 0 0 (.v 2), .ld 3 1 2, .ld 4 0 2, .sub 5 (.v 4) (.v 3), .st 0 2 (.v 5), .ld 6 1 4, .ld 7 0 4, .sub 8 (.v 7) (.v 6), .st 0 4 (.v 8), .ld 9 1 6, .ld 10 0 6, .sub 11 (.v 10) (.v 9), .st 0 6 (.v 11), .ld 12 1 8, .ld 13 0 8, .sub 14 (.v 13) (.v 12), .st 0 8 (.v 14), .ld 0 1 10, .ld 1 0 10, .sub 2 (.v 1) (.v 0), .st 0 10 (.v 2), .ld 3 1 12, .ld 4 0 12, .sub 5 (.v 4) (.v 3), .st 0 12 (.v 5), .ld 6 1 14, .ld 7 0 14, .sub 8 (.v 7) (.v 6), .st 0 14 (.v 8), .ld 9 1 16, .ld 10 0 16, .sub 11 (.v 10) (.v 9), .st 0 16 (.v 11)]]

end Verif.Sse
