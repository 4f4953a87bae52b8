import Verif.Su3
/-
The macros and specialisations of include/scalarsite_generic, written by tools/gen_su3.py.
-/
namespace Verif.Su3

/-- `_inline_generic_mult_su3_nn`, include/scalarsite_generic/generic_mult_nn.h:1-113 -/
def nn : List Stm :=
   [.word 0 .set 0 0, .word 0 .sub 1 1, .word 0 .add 2 6, .word 0 .sub 3 7, .word 0 .add 4 12, .word 0 .sub 5 13,
    .word 1 .set 0 1, .word 1 .add 1 0, .word 1 .add 2 7, .word 1 .add 3 6, .word 1 .add 4 13, .word 1 .add 5 12,
    .word 6 .set 6 0, .word 6 .sub 7 1, .word 6 .add 8 6, .word 6 .sub 9 7, .word 6 .add 10 12, .word 6 .sub 11 13,
    .word 7 .set 6 1, .word 7 .add 7 0, .word 7 .add 8 7, .word 7 .add 9 6, .word 7 .add 10 13, .word 7 .add 11 12,
    .word 12 .set 12 0, .word 12 .sub 13 1, .word 12 .add 14 6, .word 12 .sub 15 7, .word 12 .add 16 12, .word 12 .sub 17 13,
    .word 13 .set 12 1, .word 13 .add 13 0, .word 13 .add 14 7, .word 13 .add 15 6, .word 13 .add 16 13, .word 13 .add 17 12,
    .word 2 .set 0 2, .word 2 .sub 1 3, .word 2 .add 2 8, .word 2 .sub 3 9, .word 2 .add 4 14, .word 2 .sub 5 15,
    .word 3 .set 0 3, .word 3 .add 1 2, .word 3 .add 2 9, .word 3 .add 3 8, .word 3 .add 4 15, .word 3 .add 5 14,
    .word 8 .set 6 2, .word 8 .sub 7 3, .word 8 .add 8 8, .word 8 .sub 9 9, .word 8 .add 10 14, .word 8 .sub 11 15,
    .word 9 .set 6 3, .word 9 .add 7 2, .word 9 .add 8 9, .word 9 .add 9 8, .word 9 .add 10 15, .word 9 .add 11 14,
    .word 14 .set 12 2, .word 14 .sub 13 3, .word 14 .add 14 8, .word 14 .sub 15 9, .word 14 .add 16 14, .word 14 .sub 17 15,
    .word 15 .set 12 3, .word 15 .add 13 2, .word 15 .add 14 9, .word 15 .add 15 8, .word 15 .add 16 15, .word 15 .add 17 14,
    .word 4 .set 0 4, .word 4 .sub 1 5, .word 4 .add 2 10, .word 4 .sub 3 11, .word 4 .add 4 16, .word 4 .sub 5 17,
    .word 5 .set 0 5, .word 5 .add 1 4, .word 5 .add 2 11, .word 5 .add 3 10, .word 5 .add 4 17, .word 5 .add 5 16,
    .word 10 .set 6 4, .word 10 .sub 7 5, .word 10 .add 8 10, .word 10 .sub 9 11, .word 10 .add 10 16, .word 10 .sub 11 17,
    .word 11 .set 6 5, .word 11 .add 7 4, .word 11 .add 8 11, .word 11 .add 9 10, .word 11 .add 10 17, .word 11 .add 11 16,
    .word 16 .set 12 4, .word 16 .sub 13 5, .word 16 .add 14 10, .word 16 .sub 15 11, .word 16 .add 16 16, .word 16 .sub 17 17,
    .word 17 .set 12 5, .word 17 .add 13 4, .word 17 .add 14 11, .word 17 .add 15 10, .word 17 .add 16 17, .word 17 .add 17 16]

/-- `_inline_generic_mult_su3_mat_vec`, include/scalarsite_generic/generic_mat_vec.h:16-73 -/
def mv : List Stm :=
   [.word 0 .set 0 0, .word 0 .sub 1 1, .word 0 .add 2 2, .word 0 .sub 3 3, .word 0 .add 4 4, .word 0 .sub 5 5,
    .word 1 .set 0 1, .word 1 .add 1 0, .word 1 .add 2 3, .word 1 .add 3 2, .word 1 .add 4 5, .word 1 .add 5 4,
    .word 2 .set 6 0, .word 2 .sub 7 1, .word 2 .add 8 2, .word 2 .sub 9 3, .word 2 .add 10 4, .word 2 .sub 11 5,
    .word 3 .set 6 1, .word 3 .add 7 0, .word 3 .add 8 3, .word 3 .add 9 2, .word 3 .add 10 5, .word 3 .add 11 4,
    .word 4 .set 12 0, .word 4 .sub 13 1, .word 4 .add 14 2, .word 4 .sub 15 3, .word 4 .add 16 4, .word 4 .sub 17 5,
    .word 5 .set 12 1, .word 5 .add 13 0, .word 5 .add 14 3, .word 5 .add 15 2, .word 5 .add 16 5, .word 5 .add 17 4]

/-- `_inline_generic_mult_adj_su3_mat_vec`, include/scalarsite_generic/generic_mat_vec.h:81-138 -/
def av : List Stm :=
   [.word 0 .set 0 0, .word 0 .add 1 1, .word 0 .add 6 2, .word 0 .add 7 3, .word 0 .add 12 4, .word 0 .add 13 5,
    .word 1 .set 0 1, .word 1 .sub 1 0, .word 1 .add 6 3, .word 1 .sub 7 2, .word 1 .add 12 5, .word 1 .sub 13 4,
    .word 2 .set 2 0, .word 2 .add 3 1, .word 2 .add 8 2, .word 2 .add 9 3, .word 2 .add 14 4, .word 2 .add 15 5,
    .word 3 .set 2 1, .word 3 .sub 3 0, .word 3 .add 8 3, .word 3 .sub 9 2, .word 3 .add 14 5, .word 3 .sub 15 4,
    .word 4 .set 4 0, .word 4 .add 5 1, .word 4 .add 10 2, .word 4 .add 11 3, .word 4 .add 16 4, .word 4 .add 17 5,
    .word 5 .set 4 1, .word 5 .sub 5 0, .word 5 .add 10 3, .word 5 .sub 11 2, .word 5 .add 16 5, .word 5 .sub 17 4]

/-- `_inline_generic_mult_su3_na`, include/scalarsite_generic/generic_mult_na.h:1-32 -/
def na : List Stm :=
   [.prods .right 0 [(0, 0), (1, 1), (2, 2)],
    .prods .right 3 [(3, 0), (4, 1), (5, 2)],
    .prods .right 6 [(6, 0), (7, 1), (8, 2)],
    .prods .right 1 [(0, 3), (1, 4), (2, 5)],
    .prods .right 4 [(3, 3), (4, 4), (5, 5)],
    .prods .right 7 [(6, 3), (7, 4), (8, 5)],
    .prods .right 2 [(0, 6), (1, 7), (2, 8)],
    .prods .right 5 [(3, 6), (4, 7), (5, 8)],
    .prods .right 8 [(6, 6), (7, 7), (8, 8)]]

/-- `_inline_generic_mult_su3_an`, include/scalarsite_generic/generic_mult_an.h:1-32 -/
def an : List Stm :=
   [.prods .left 0 [(0, 0), (3, 3), (6, 6)],
    .prods .left 3 [(1, 0), (4, 3), (7, 6)],
    .prods .left 6 [(2, 0), (5, 3), (8, 6)],
    .prods .left 1 [(0, 1), (3, 4), (6, 7)],
    .prods .left 4 [(1, 1), (4, 4), (7, 7)],
    .prods .left 7 [(2, 1), (5, 4), (8, 7)],
    .prods .left 2 [(0, 2), (3, 5), (6, 8)],
    .prods .left 5 [(1, 2), (4, 5), (7, 8)],
    .prods .left 8 [(2, 2), (5, 5), (8, 8)]]

/-- `_inline_generic_add_su3_vector`, include/scalarsite_generic/generic_addvec.h:1-6 -/
def vv : List Stm := [.sum 0 0 0, .sum 1 1 1, .sum 2 2 2]

/-- include/scalarsite_generic/qdp_scalarsite_generic_linalg.h:39-55 -/
def s00 : Spec := ⟨.mat .color 2 .rc, .mat .color 2 .rc, _, .mul (.mm .color 2 .cc), [⟨nn, 0, 0, 0⟩]⟩

/-- include/scalarsite_generic/qdp_scalarsite_generic_linalg.h:61-77 -/
def s01 : Spec := ⟨.sca (.mat .color 2 .rc), .sca (.mat .color 2 .rc), _, .mul (.ss (.mm .color 2 .cc)), [⟨nn, 0, 0, 0⟩]⟩

/-- include/scalarsite_generic/qdp_scalarsite_generic_linalg.h:82-98 -/
def s02 : Spec := ⟨.mat .color 2 .rc, .mat .color 2 .rc, _, .adjMul (.mm .color 2 .cc), [⟨an, 0, 0, 0⟩]⟩

/-- include/scalarsite_generic/qdp_scalarsite_generic_linalg.h:103-119 -/
def s03 : Spec := ⟨.sca (.mat .color 2 .rc), .sca (.mat .color 2 .rc), _, .adjMul (.ss (.mm .color 2 .cc)), [⟨an, 0, 0, 0⟩]⟩

/-- include/scalarsite_generic/qdp_scalarsite_generic_linalg.h:124-140 -/
def s04 : Spec := ⟨.mat .color 2 .rc, .mat .color 2 .rc, _, .mulAdj (.mm .color 2 .cc), [⟨na, 0, 0, 0⟩]⟩

/-- include/scalarsite_generic/qdp_scalarsite_generic_linalg.h:145-161 -/
def s05 : Spec := ⟨.sca (.mat .color 2 .rc), .sca (.mat .color 2 .rc), _, .mulAdj (.ss (.mm .color 2 .cc)), [⟨na, 0, 0, 0⟩]⟩

/-- include/scalarsite_generic/qdp_scalarsite_generic_linalg.h:192-208 -/
def s06 : Spec := ⟨.mat .color 2 .rc, .vec .color 2 .rc, _, .mul (.mv .color 2 .cc), [⟨mv, 0, 0, 0⟩]⟩

/-- include/scalarsite_generic/qdp_scalarsite_generic_linalg.h:213-229 -/
def s07 : Spec := ⟨.sca (.mat .color 2 .rc), .sca (.vec .color 2 .rc), _, .mul (.ss (.mv .color 2 .cc)), [⟨mv, 0, 0, 0⟩]⟩

/-- include/scalarsite_generic/qdp_scalarsite_generic_linalg.h:234-250 -/
def s08 : Spec := ⟨.mat .color 2 .rc, .vec .color 2 .rc, _, .adjMul (.mv .color 2 .cc), [⟨av, 0, 0, 0⟩]⟩

/-- include/scalarsite_generic/qdp_scalarsite_generic_linalg.h:255-271 -/
def s09 : Spec := ⟨.sca (.mat .color 2 .rc), .vec .spin 0 (.vec .color 2 .rc), _, .mul (.sv .spin 0 (.mv .color 2 .cc)), [⟨mv, 0, 0, 0⟩]⟩

/-- include/scalarsite_generic/qdp_scalarsite_generic_linalg.h:276-292 -/
def s10 : Spec := ⟨.sca (.mat .color 2 .rc), .sca (.vec .color 2 .rc), _, .adjMul (.ss (.mv .color 2 .cc)), [⟨av, 0, 0, 0⟩]⟩

/-- include/scalarsite_generic/qdp_scalarsite_generic_linalg.h:297-313 -/
def s11 : Spec := ⟨.sca (.mat .color 2 .rc), .vec .spin 0 (.vec .color 2 .rc), _, .adjMul (.sv .spin 0 (.mv .color 2 .cc)), [⟨av, 0, 0, 0⟩]⟩

/-- include/scalarsite_generic/qdp_scalarsite_generic_linalg.h:319-336 -/
def s12 : Spec := ⟨.sca (.mat .color 2 .rc), .vec .spin 1 (.vec .color 2 .rc), _, .mul (.sv .spin 1 (.mv .color 2 .cc)), [⟨mv, 0, 0, 0⟩, ⟨mv, 0, 6, 6⟩]⟩

/-- include/scalarsite_generic/qdp_scalarsite_generic_linalg.h:342-359 -/
def s13 : Spec := ⟨.sca (.mat .color 2 .rc), .vec .spin 1 (.vec .color 2 .rc), _, .adjMul (.sv .spin 1 (.mv .color 2 .cc)), [⟨av, 0, 0, 0⟩, ⟨av, 0, 6, 6⟩]⟩

/-- include/scalarsite_generic/qdp_scalarsite_generic_linalg.h:364-380 -/
def s14 : Spec := ⟨.vec .color 2 .rc, .vec .color 2 .rc, _, .add (.vec .color 2 .rc), [⟨vv, 0, 0, 0⟩]⟩

/-- include/scalarsite_generic/qdp_scalarsite_generic_linalg.h:386-405 -/
def s15 : Spec := ⟨.sca (.mat .color 2 .rc), .vec .spin 3 (.vec .color 2 .rc), _, .mul (.sv .spin 3 (.mv .color 2 .cc)), [⟨mv, 0, 0, 0⟩, ⟨mv, 0, 6, 6⟩, ⟨mv, 0, 12, 12⟩, ⟨mv, 0, 18, 18⟩]⟩

/-- include/scalarsite_generic/qdp_scalarsite_generic_linalg.h:411-430 -/
def s16 : Spec := ⟨.sca (.mat .color 2 .rc), .vec .spin 3 (.vec .color 2 .rc), _, .adjMul (.sv .spin 3 (.mv .color 2 .cc)), [⟨av, 0, 0, 0⟩, ⟨av, 0, 6, 6⟩, ⟨av, 0, 12, 12⟩, ⟨av, 0, 18, 18⟩]⟩

/-- include/scalarsite_generic/qdp_scalarsite_generic_linalg.h:437-453 -/
def s17 : Spec := ⟨.sca (.vec .color 2 .rc), .sca (.vec .color 2 .rc), _, .add (.sca (.vec .color 2 .rc)), [⟨vv, 0, 0, 0⟩]⟩

/-- the specialisations of include/scalarsite_generic/qdp_scalarsite_generic_linalg.h -/
def specs : List Spec := [s00, s01, s02, s03, s04, s05, s06, s07, s08, s09, s10, s11, s12, s13, s14, s15, s16, s17]

/-- the body of the loop, include/scalarsite_generic/qdp_scalarsite_generic_linalg_wrapper.h:33-55 -/
def orderedCalls : List Call := [⟨mv, 0, 0, 0⟩, ⟨mv, 0, 6, 6⟩]

/-- the body of the loop, include/scalarsite_generic/qdp_scalarsite_generic_linalg_wrapper.h:78-97 -/
def unorderedCalls : List Call := [⟨mv, 0, 0, 0⟩, ⟨mv, 0, 6, 6⟩]

end Verif.Su3
