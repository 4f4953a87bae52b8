import Verif.SseSite
/-
The specialised operators of include/scalarsite_sse/qdp_scalarsite_sse_linalg.h, written by tools/gen_sse_site.py.
-/
namespace Verif.SseSite

/-- include/scalarsite_sse/qdp_scalarsite_sse_linalg.h:52-72 -/
def o00 : Spec := ⟨.mat .color 2 .rc, .mat .color 2 .rc, _, .mul (.mm .color 2 .cc),
   [⟨.nn, (false, 0), (true, 0), 0⟩], false, []⟩

/-- include/scalarsite_sse/qdp_scalarsite_sse_linalg.h:79-98 -/
def o01 : Spec := ⟨.sca (.mat .color 2 .rc), .sca (.mat .color 2 .rc), _, .mul (.ss (.mm .color 2 .cc)),
   [⟨.nn, (false, 0), (true, 0), 0⟩], false, []⟩

/-- include/scalarsite_sse/qdp_scalarsite_sse_linalg.h:104-124 -/
def o02 : Spec := ⟨.sca (.sca (.mat .color 2 .rc)), .sca (.sca (.mat .color 2 .rc)), _, .mul (.ss (.ss (.mm .color 2 .cc))),
   [⟨.nn, (false, 0), (true, 0), 0⟩], false, []⟩

/-- include/scalarsite_sse/qdp_scalarsite_sse_linalg.h:129-148 -/
def o03 : Spec := ⟨.mat .color 2 .rc, .mat .color 2 .rc, _, .adjMul (.mm .color 2 .cc),
   [⟨.an, (false, 0), (true, 0), 0⟩], false, []⟩

/-- include/scalarsite_sse/qdp_scalarsite_sse_linalg.h:153-174 -/
def o04 : Spec := ⟨.sca (.mat .color 2 .rc), .sca (.mat .color 2 .rc), _, .adjMul (.ss (.mm .color 2 .cc)),
   [⟨.an, (false, 0), (true, 0), 0⟩], false, []⟩

/-- include/scalarsite_sse/qdp_scalarsite_sse_linalg.h:180-200 -/
def o05 : Spec := ⟨.sca (.sca (.mat .color 2 .rc)), .sca (.sca (.mat .color 2 .rc)), _, .adjMul (.ss (.ss (.mm .color 2 .cc))),
   [⟨.an, (false, 0), (true, 0), 0⟩], false, []⟩

/-- include/scalarsite_sse/qdp_scalarsite_sse_linalg.h:205-225 -/
def o06 : Spec := ⟨.mat .color 2 .rc, .mat .color 2 .rc, _, .mulAdj (.mm .color 2 .cc),
   [⟨.na, (false, 0), (true, 0), 0⟩], false, []⟩

/-- include/scalarsite_sse/qdp_scalarsite_sse_linalg.h:231-250 -/
def o07 : Spec := ⟨.sca (.mat .color 2 .rc), .sca (.mat .color 2 .rc), _, .mulAdj (.ss (.mm .color 2 .cc)),
   [⟨.na, (false, 0), (true, 0), 0⟩], false, []⟩

/-- include/scalarsite_sse/qdp_scalarsite_sse_linalg.h:256-275 -/
def o08 : Spec := ⟨.sca (.sca (.mat .color 2 .rc)), .sca (.sca (.mat .color 2 .rc)), _, .mulAdj (.ss (.ss (.mm .color 2 .cc))),
   [⟨.na, (false, 0), (true, 0), 0⟩], false, []⟩

/-- include/scalarsite_sse/qdp_scalarsite_sse_linalg.h:282-326 -/
def o09 : Spec := ⟨.mat .color 2 .rc, .mat .color 2 .rc, _, .adjMulAdj (.mm .color 2 .cc),
   [⟨.nn, (true, 0), (false, 0), 0⟩], true, [⟨0, 0, false, .set, false, 0, 0, false⟩, ⟨0, 0, true, .set, true, 0, 0, true⟩, ⟨0, 1, false, .set, false, 1, 0, false⟩, ⟨0, 1, true, .set, true, 1, 0, true⟩, ⟨0, 2, false, .set, false, 2, 0, false⟩, ⟨0, 2, true, .set, true, 2, 0, true⟩,
    ⟨1, 0, false, .set, false, 0, 1, false⟩, ⟨1, 0, true, .set, true, 0, 1, true⟩, ⟨1, 1, false, .set, false, 1, 1, false⟩, ⟨1, 1, true, .set, true, 1, 1, true⟩, ⟨1, 2, false, .set, false, 2, 1, false⟩, ⟨1, 2, true, .set, true, 2, 1, true⟩,
    ⟨2, 0, false, .set, false, 0, 2, false⟩, ⟨2, 0, true, .set, true, 0, 2, true⟩, ⟨2, 1, false, .set, false, 1, 2, false⟩, ⟨2, 1, true, .set, true, 1, 2, true⟩, ⟨2, 2, false, .set, false, 2, 2, false⟩, ⟨2, 2, true, .set, true, 2, 2, true⟩]⟩

/-- include/scalarsite_sse/qdp_scalarsite_sse_linalg.h:331-351 -/
def o10 : Spec := ⟨.mat .color 2 .rc, .vec .color 2 .rc, _, .mul (.mv .color 2 .cc),
   [⟨.mv, (false, 0), (true, 0), 0⟩], false, []⟩

/-- include/scalarsite_sse/qdp_scalarsite_sse_linalg.h:356-376 -/
def o11 : Spec := ⟨.sca (.mat .color 2 .rc), .sca (.vec .color 2 .rc), _, .mul (.ss (.mv .color 2 .cc)),
   [⟨.mv, (false, 0), (true, 0), 0⟩], false, []⟩

/-- include/scalarsite_sse/qdp_scalarsite_sse_linalg.h:381-401 -/
def o12 : Spec := ⟨.mat .color 2 .rc, .vec .color 2 .rc, _, .adjMul (.mv .color 2 .cc),
   [⟨.av, (false, 0), (true, 0), 0⟩], false, []⟩

/-- include/scalarsite_sse/qdp_scalarsite_sse_linalg.h:406-425 -/
def o13 : Spec := ⟨.sca (.mat .color 2 .rc), .vec .spin 0 (.vec .color 2 .rc), _, .mul (.sv .spin 0 (.mv .color 2 .cc)),
   [⟨.mv, (false, 0), (true, 0), 0⟩], false, []⟩

/-- include/scalarsite_sse/qdp_scalarsite_sse_linalg.h:430-449 -/
def o14 : Spec := ⟨.sca (.mat .color 2 .rc), .sca (.vec .color 2 .rc), _, .adjMul (.ss (.mv .color 2 .cc)),
   [⟨.av, (false, 0), (true, 0), 0⟩], false, []⟩

/-- include/scalarsite_sse/qdp_scalarsite_sse_linalg.h:454-473 -/
def o15 : Spec := ⟨.sca (.mat .color 2 .rc), .vec .spin 0 (.vec .color 2 .rc), _, .adjMul (.sv .spin 0 (.mv .color 2 .cc)),
   [⟨.av, (false, 0), (true, 0), 0⟩], false, []⟩

/-- include/scalarsite_sse/qdp_scalarsite_sse_linalg.h:479-498 -/
def o16 : Spec := ⟨.sca (.mat .color 2 .rc), .vec .spin 1 (.vec .color 2 .rc), _, .mul (.sv .spin 1 (.mv .color 2 .cc)),
   [⟨.mh, (false, 0), (true, 0), 0⟩], false, []⟩

/-- include/scalarsite_sse/qdp_scalarsite_sse_linalg.h:504-524 -/
def o17 : Spec := ⟨.sca (.mat .color 2 .rc), .vec .spin 1 (.vec .color 2 .rc), _, .adjMul (.sv .spin 1 (.mv .color 2 .cc)),
   [⟨.ah, (false, 0), (true, 0), 0⟩], false, []⟩

/-- include/scalarsite_sse/qdp_scalarsite_sse_linalg.h:529-549 -/
def o18 : Spec := ⟨.vec .color 2 .rc, .vec .color 2 .rc, _, .add (.vec .color 2 .rc),
   [⟨.vv, (false, 0), (true, 0), 0⟩], false, []⟩

/-- include/scalarsite_sse/qdp_scalarsite_sse_linalg.h:555-584 -/
def o19 : Spec := ⟨.sca (.mat .color 2 .rc), .vec .spin 3 (.vec .color 2 .rc), _, .mul (.sv .spin 3 (.mv .color 2 .cc)),
   [⟨.mv, (false, 0), (true, 0), 0⟩, ⟨.mv, (false, 0), (true, 6), 6⟩, ⟨.mv, (false, 0), (true, 12), 12⟩, ⟨.mv, (false, 0), (true, 18), 18⟩], false, []⟩

/-- include/scalarsite_sse/qdp_scalarsite_sse_linalg.h:590-619 -/
def o20 : Spec := ⟨.sca (.mat .color 2 .rc), .vec .spin 3 (.vec .color 2 .rc), _, .adjMul (.sv .spin 3 (.mv .color 2 .cc)),
   [⟨.av, (false, 0), (true, 0), 0⟩, ⟨.av, (false, 0), (true, 6), 6⟩, ⟨.av, (false, 0), (true, 12), 12⟩, ⟨.av, (false, 0), (true, 18), 18⟩], false, []⟩

/-- include/scalarsite_sse/qdp_scalarsite_sse_linalg.h:625-645 -/
def o21 : Spec := ⟨.sca (.vec .color 2 .rc), .sca (.vec .color 2 .rc), _, .add (.sca (.vec .color 2 .rc)),
   [⟨.vv, (false, 0), (true, 0), 0⟩], false, []⟩

/-- the specialisations -/
def specs : List Spec := [o00, o01, o02, o03, o04, o05, o06, o07, o08, o09, o10, o11, o12, o13, o14, o15, o16, o17, o18, o19, o20, o21]

/-- the routine called in the two loops, lib/scalarsite_sse/qdp_scalarsite_sse.cc:1123-1157 -/
def halfRoutine (ordered : Bool) : Routine := if ordered then .mh else .mh

end Verif.SseSite
