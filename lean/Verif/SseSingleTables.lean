import Verif.SseSingle
/- Generated by tools/gen_sse_single.py from lib/scalarsite_sse/qdp_scalarsite_sse.cc. -/
namespace Verif.SseSingle.Tables
open Verif.Sse Verif.SseSingle

/-- lib/scalarsite_sse/qdp_scalarsite_sse.cc:40- -/
def mm_set_ordered : Branch :=
  ⟨.mm, false, false,
    []⟩

/-- lib/scalarsite_sse/qdp_scalarsite_sse.cc:52- -/
def mm_set_table : Branch :=
  ⟨.mm, false, false,
    []⟩

/-- lib/scalarsite_sse/qdp_scalarsite_sse.cc:84- -/
def hm_set_ordered : Branch :=
  ⟨.hm, false, false,
    []⟩

/-- lib/scalarsite_sse/qdp_scalarsite_sse.cc:95- -/
def hm_set_table : Branch :=
  ⟨.hm, false, false,
    []⟩

/-- lib/scalarsite_sse/qdp_scalarsite_sse.cc:129- -/
def mh_set_ordered : Branch :=
  ⟨.mh, false, false,
    []⟩

/-- lib/scalarsite_sse/qdp_scalarsite_sse.cc:141- -/
def mh_set_table : Branch :=
  ⟨.mh, false, false,
    []⟩

/-- lib/scalarsite_sse/qdp_scalarsite_sse.cc:175- -/
def hh_set_ordered : Branch :=
  ⟨.mm, true, true,
    [⟨0, 0, false, .set, false, 0, 0, false⟩, ⟨0, 0, true, .set, true, 0, 0, true⟩, ⟨0, 1, false, .set, false, 1, 0, false⟩, ⟨0, 1, true, .set, true, 1, 0, true⟩, ⟨0, 2, false, .set, false, 2, 0, false⟩, ⟨0, 2, true, .set, true, 2, 0, true⟩, ⟨1, 0, false, .set, false, 0, 1, false⟩, ⟨1, 0, true, .set, true, 0, 1, true⟩, ⟨1, 1, false, .set, false, 1, 1, false⟩, ⟨1, 1, true, .set, true, 1, 1, true⟩, ⟨1, 2, false, .set, false, 2, 1, false⟩, ⟨1, 2, true, .set, true, 2, 1, true⟩, ⟨2, 0, false, .set, false, 0, 2, false⟩, ⟨2, 0, true, .set, true, 0, 2, true⟩, ⟨2, 1, false, .set, false, 1, 2, false⟩, ⟨2, 1, true, .set, true, 1, 2, true⟩, ⟨2, 2, false, .set, false, 2, 2, false⟩, ⟨2, 2, true, .set, true, 2, 2, true⟩]⟩

/-- lib/scalarsite_sse/qdp_scalarsite_sse.cc:207- -/
def hh_set_table : Branch :=
  ⟨.mm, true, true,
    [⟨0, 0, false, .set, false, 0, 0, false⟩, ⟨0, 0, true, .set, true, 0, 0, true⟩, ⟨0, 1, false, .set, false, 1, 0, false⟩, ⟨0, 1, true, .set, true, 1, 0, true⟩, ⟨0, 2, false, .set, false, 2, 0, false⟩, ⟨0, 2, true, .set, true, 2, 0, true⟩, ⟨1, 0, false, .set, false, 0, 1, false⟩, ⟨1, 0, true, .set, true, 0, 1, true⟩, ⟨1, 1, false, .set, false, 1, 1, false⟩, ⟨1, 1, true, .set, true, 1, 1, true⟩, ⟨1, 2, false, .set, false, 2, 1, false⟩, ⟨1, 2, true, .set, true, 2, 1, true⟩, ⟨2, 0, false, .set, false, 0, 2, false⟩, ⟨2, 0, true, .set, true, 0, 2, true⟩, ⟨2, 1, false, .set, false, 1, 2, false⟩, ⟨2, 1, true, .set, true, 1, 2, true⟩, ⟨2, 2, false, .set, false, 2, 2, false⟩, ⟨2, 2, true, .set, true, 2, 2, true⟩]⟩

/-- lib/scalarsite_sse/qdp_scalarsite_sse.cc:263- -/
def mm_add_ordered : Branch :=
  ⟨.mm, false, true,
    [⟨0, 0, false, .add, false, 0, 0, false⟩, ⟨0, 0, true, .add, false, 0, 0, true⟩, ⟨0, 1, false, .add, false, 0, 1, false⟩, ⟨0, 1, true, .add, false, 0, 1, true⟩, ⟨0, 2, false, .add, false, 0, 2, false⟩, ⟨0, 2, true, .add, false, 0, 2, true⟩, ⟨1, 0, false, .add, false, 1, 0, false⟩, ⟨1, 0, true, .add, false, 1, 0, true⟩, ⟨1, 1, false, .add, false, 1, 1, false⟩, ⟨1, 1, true, .add, false, 1, 1, true⟩, ⟨1, 2, false, .add, false, 1, 2, false⟩, ⟨1, 2, true, .add, false, 1, 2, true⟩, ⟨2, 0, false, .add, false, 2, 0, false⟩, ⟨2, 0, true, .add, false, 2, 0, true⟩, ⟨2, 1, false, .add, false, 2, 1, false⟩, ⟨2, 1, true, .add, false, 2, 1, true⟩, ⟨2, 2, false, .add, false, 2, 2, false⟩, ⟨2, 2, true, .add, false, 2, 2, true⟩]⟩

/-- lib/scalarsite_sse/qdp_scalarsite_sse.cc:294- -/
def mm_add_table : Branch :=
  ⟨.mm, false, true,
    [⟨0, 0, false, .add, false, 0, 0, false⟩, ⟨0, 0, true, .add, false, 0, 0, true⟩, ⟨0, 1, false, .add, false, 0, 1, false⟩, ⟨0, 1, true, .add, false, 0, 1, true⟩, ⟨0, 2, false, .add, false, 0, 2, false⟩, ⟨0, 2, true, .add, false, 0, 2, true⟩, ⟨1, 0, false, .add, false, 1, 0, false⟩, ⟨1, 0, true, .add, false, 1, 0, true⟩, ⟨1, 1, false, .add, false, 1, 1, false⟩, ⟨1, 1, true, .add, false, 1, 1, true⟩, ⟨1, 2, false, .add, false, 1, 2, false⟩, ⟨1, 2, true, .add, false, 1, 2, true⟩, ⟨2, 0, false, .add, false, 2, 0, false⟩, ⟨2, 0, true, .add, false, 2, 0, true⟩, ⟨2, 1, false, .add, false, 2, 1, false⟩, ⟨2, 1, true, .add, false, 2, 1, true⟩, ⟨2, 2, false, .add, false, 2, 2, false⟩, ⟨2, 2, true, .add, false, 2, 2, true⟩]⟩

/-- lib/scalarsite_sse/qdp_scalarsite_sse.cc:348- -/
def hm_add_ordered : Branch :=
  ⟨.hm, false, true,
    [⟨0, 0, false, .add, false, 0, 0, false⟩, ⟨0, 0, true, .add, false, 0, 0, true⟩, ⟨0, 1, false, .add, false, 0, 1, false⟩, ⟨0, 1, true, .add, false, 0, 1, true⟩, ⟨0, 2, false, .add, false, 0, 2, false⟩, ⟨0, 2, true, .add, false, 0, 2, true⟩, ⟨1, 0, false, .add, false, 1, 0, false⟩, ⟨1, 0, true, .add, false, 1, 0, true⟩, ⟨1, 1, false, .add, false, 1, 1, false⟩, ⟨1, 1, true, .add, false, 1, 1, true⟩, ⟨1, 2, false, .add, false, 1, 2, false⟩, ⟨1, 2, true, .add, false, 1, 2, true⟩, ⟨2, 0, false, .add, false, 2, 0, false⟩, ⟨2, 0, true, .add, false, 2, 0, true⟩, ⟨2, 1, false, .add, false, 2, 1, false⟩, ⟨2, 1, true, .add, false, 2, 1, true⟩, ⟨2, 2, false, .add, false, 2, 2, false⟩, ⟨2, 2, true, .add, false, 2, 2, true⟩]⟩

/-- lib/scalarsite_sse/qdp_scalarsite_sse.cc:379- -/
def hm_add_table : Branch :=
  ⟨.hm, false, true,
    [⟨0, 0, false, .add, false, 0, 0, false⟩, ⟨0, 0, true, .add, false, 0, 0, true⟩, ⟨0, 1, false, .add, false, 0, 1, false⟩, ⟨0, 1, true, .add, false, 0, 1, true⟩, ⟨0, 2, false, .add, false, 0, 2, false⟩, ⟨0, 2, true, .add, false, 0, 2, true⟩, ⟨1, 0, false, .add, false, 1, 0, false⟩, ⟨1, 0, true, .add, false, 1, 0, true⟩, ⟨1, 1, false, .add, false, 1, 1, false⟩, ⟨1, 1, true, .add, false, 1, 1, true⟩, ⟨1, 2, false, .add, false, 1, 2, false⟩, ⟨1, 2, true, .add, false, 1, 2, true⟩, ⟨2, 0, false, .add, false, 2, 0, false⟩, ⟨2, 0, true, .add, false, 2, 0, true⟩, ⟨2, 1, false, .add, false, 2, 1, false⟩, ⟨2, 1, true, .add, false, 2, 1, true⟩, ⟨2, 2, false, .add, false, 2, 2, false⟩, ⟨2, 2, true, .add, false, 2, 2, true⟩]⟩

/-- lib/scalarsite_sse/qdp_scalarsite_sse.cc:433- -/
def mh_add_ordered : Branch :=
  ⟨.mh, false, true,
    [⟨0, 0, false, .add, false, 0, 0, false⟩, ⟨0, 0, true, .add, false, 0, 0, true⟩, ⟨0, 1, false, .add, false, 0, 1, false⟩, ⟨0, 1, true, .add, false, 0, 1, true⟩, ⟨0, 2, false, .add, false, 0, 2, false⟩, ⟨0, 2, true, .add, false, 0, 2, true⟩, ⟨1, 0, false, .add, false, 1, 0, false⟩, ⟨1, 0, true, .add, false, 1, 0, true⟩, ⟨1, 1, false, .add, false, 1, 1, false⟩, ⟨1, 1, true, .add, false, 1, 1, true⟩, ⟨1, 2, false, .add, false, 1, 2, false⟩, ⟨1, 2, true, .add, false, 1, 2, true⟩, ⟨2, 0, false, .add, false, 2, 0, false⟩, ⟨2, 0, true, .add, false, 2, 0, true⟩, ⟨2, 1, false, .add, false, 2, 1, false⟩, ⟨2, 1, true, .add, false, 2, 1, true⟩, ⟨2, 2, false, .add, false, 2, 2, false⟩, ⟨2, 2, true, .add, false, 2, 2, true⟩]⟩

/-- lib/scalarsite_sse/qdp_scalarsite_sse.cc:466- -/
def mh_add_table : Branch :=
  ⟨.mh, false, true,
    [⟨0, 0, false, .add, false, 0, 0, false⟩, ⟨0, 0, true, .add, false, 0, 0, true⟩, ⟨0, 1, false, .add, false, 0, 1, false⟩, ⟨0, 1, true, .add, false, 0, 1, true⟩, ⟨0, 2, false, .add, false, 0, 2, false⟩, ⟨0, 2, true, .add, false, 0, 2, true⟩, ⟨1, 0, false, .add, false, 1, 0, false⟩, ⟨1, 0, true, .add, false, 1, 0, true⟩, ⟨1, 1, false, .add, false, 1, 1, false⟩, ⟨1, 1, true, .add, false, 1, 1, true⟩, ⟨1, 2, false, .add, false, 1, 2, false⟩, ⟨1, 2, true, .add, false, 1, 2, true⟩, ⟨2, 0, false, .add, false, 2, 0, false⟩, ⟨2, 0, true, .add, false, 2, 0, true⟩, ⟨2, 1, false, .add, false, 2, 1, false⟩, ⟨2, 1, true, .add, false, 2, 1, true⟩, ⟨2, 2, false, .add, false, 2, 2, false⟩, ⟨2, 2, true, .add, false, 2, 2, true⟩]⟩

/-- lib/scalarsite_sse/qdp_scalarsite_sse.cc:520- -/
def hh_add_ordered : Branch :=
  ⟨.mm, true, true,
    [⟨0, 0, false, .add, false, 0, 0, false⟩, ⟨0, 0, true, .sub, false, 0, 0, true⟩, ⟨0, 1, false, .add, false, 1, 0, false⟩, ⟨0, 1, true, .sub, false, 1, 0, true⟩, ⟨0, 2, false, .add, false, 2, 0, false⟩, ⟨0, 2, true, .sub, false, 2, 0, true⟩, ⟨1, 0, false, .add, false, 0, 1, false⟩, ⟨1, 0, true, .sub, false, 0, 1, true⟩, ⟨1, 1, false, .add, false, 1, 1, false⟩, ⟨1, 1, true, .sub, false, 1, 1, true⟩, ⟨1, 2, false, .add, false, 2, 1, false⟩, ⟨1, 2, true, .sub, false, 2, 1, true⟩, ⟨2, 0, false, .add, false, 0, 2, false⟩, ⟨2, 0, true, .sub, false, 0, 2, true⟩, ⟨2, 1, false, .add, false, 1, 2, false⟩, ⟨2, 1, true, .sub, false, 1, 2, true⟩, ⟨2, 2, false, .add, false, 2, 2, false⟩, ⟨2, 2, true, .sub, false, 2, 2, true⟩]⟩

/-- lib/scalarsite_sse/qdp_scalarsite_sse.cc:555- -/
def hh_add_table : Branch :=
  ⟨.mm, true, true,
    [⟨0, 0, false, .add, false, 0, 0, false⟩, ⟨0, 0, true, .sub, false, 0, 0, true⟩, ⟨0, 1, false, .add, false, 1, 0, false⟩, ⟨0, 1, true, .sub, false, 1, 0, true⟩, ⟨0, 2, false, .add, false, 2, 0, false⟩, ⟨0, 2, true, .sub, false, 2, 0, true⟩, ⟨1, 0, false, .add, false, 0, 1, false⟩, ⟨1, 0, true, .sub, false, 0, 1, true⟩, ⟨1, 1, false, .add, false, 1, 1, false⟩, ⟨1, 1, true, .sub, false, 1, 1, true⟩, ⟨1, 2, false, .add, false, 2, 1, false⟩, ⟨1, 2, true, .sub, false, 2, 1, true⟩, ⟨2, 0, false, .add, false, 0, 2, false⟩, ⟨2, 0, true, .sub, false, 0, 2, true⟩, ⟨2, 1, false, .add, false, 1, 2, false⟩, ⟨2, 1, true, .sub, false, 1, 2, true⟩, ⟨2, 2, false, .add, false, 2, 2, false⟩, ⟨2, 2, true, .sub, false, 2, 2, true⟩]⟩

/-- lib/scalarsite_sse/qdp_scalarsite_sse.cc:784- -/
def mm_sub_ordered : Branch :=
  ⟨.mm, false, true,
    [⟨0, 0, false, .sub, false, 0, 0, false⟩, ⟨0, 0, true, .sub, false, 0, 0, true⟩, ⟨0, 1, false, .sub, false, 0, 1, false⟩, ⟨0, 1, true, .sub, false, 0, 1, true⟩, ⟨0, 2, false, .sub, false, 0, 2, false⟩, ⟨0, 2, true, .sub, false, 0, 2, true⟩, ⟨1, 0, false, .sub, false, 1, 0, false⟩, ⟨1, 0, true, .sub, false, 1, 0, true⟩, ⟨1, 1, false, .sub, false, 1, 1, false⟩, ⟨1, 1, true, .sub, false, 1, 1, true⟩, ⟨1, 2, false, .sub, false, 1, 2, false⟩, ⟨1, 2, true, .sub, false, 1, 2, true⟩, ⟨2, 0, false, .sub, false, 2, 0, false⟩, ⟨2, 0, true, .sub, false, 2, 0, true⟩, ⟨2, 1, false, .sub, false, 2, 1, false⟩, ⟨2, 1, true, .sub, false, 2, 1, true⟩, ⟨2, 2, false, .sub, false, 2, 2, false⟩, ⟨2, 2, true, .sub, false, 2, 2, true⟩]⟩

/-- lib/scalarsite_sse/qdp_scalarsite_sse.cc:816- -/
def mm_sub_table : Branch :=
  ⟨.mm, false, true,
    [⟨0, 0, false, .sub, false, 0, 0, false⟩, ⟨0, 0, true, .sub, false, 0, 0, true⟩, ⟨0, 1, false, .sub, false, 0, 1, false⟩, ⟨0, 1, true, .sub, false, 0, 1, true⟩, ⟨0, 2, false, .sub, false, 0, 2, false⟩, ⟨0, 2, true, .sub, false, 0, 2, true⟩, ⟨1, 0, false, .sub, false, 1, 0, false⟩, ⟨1, 0, true, .sub, false, 1, 0, true⟩, ⟨1, 1, false, .sub, false, 1, 1, false⟩, ⟨1, 1, true, .sub, false, 1, 1, true⟩, ⟨1, 2, false, .sub, false, 1, 2, false⟩, ⟨1, 2, true, .sub, false, 1, 2, true⟩, ⟨2, 0, false, .sub, false, 2, 0, false⟩, ⟨2, 0, true, .sub, false, 2, 0, true⟩, ⟨2, 1, false, .sub, false, 2, 1, false⟩, ⟨2, 1, true, .sub, false, 2, 1, true⟩, ⟨2, 2, false, .sub, false, 2, 2, false⟩, ⟨2, 2, true, .sub, false, 2, 2, true⟩]⟩

/-- lib/scalarsite_sse/qdp_scalarsite_sse.cc:869- -/
def hm_sub_ordered : Branch :=
  ⟨.hm, false, true,
    [⟨0, 0, false, .sub, false, 0, 0, false⟩, ⟨0, 0, true, .sub, false, 0, 0, true⟩, ⟨0, 1, false, .sub, false, 0, 1, false⟩, ⟨0, 1, true, .sub, false, 0, 1, true⟩, ⟨0, 2, false, .sub, false, 0, 2, false⟩, ⟨0, 2, true, .sub, false, 0, 2, true⟩, ⟨1, 0, false, .sub, false, 1, 0, false⟩, ⟨1, 0, true, .sub, false, 1, 0, true⟩, ⟨1, 1, false, .sub, false, 1, 1, false⟩, ⟨1, 1, true, .sub, false, 1, 1, true⟩, ⟨1, 2, false, .sub, false, 1, 2, false⟩, ⟨1, 2, true, .sub, false, 1, 2, true⟩, ⟨2, 0, false, .sub, false, 2, 0, false⟩, ⟨2, 0, true, .sub, false, 2, 0, true⟩, ⟨2, 1, false, .sub, false, 2, 1, false⟩, ⟨2, 1, true, .sub, false, 2, 1, true⟩, ⟨2, 2, false, .sub, false, 2, 2, false⟩, ⟨2, 2, true, .sub, false, 2, 2, true⟩]⟩

/-- lib/scalarsite_sse/qdp_scalarsite_sse.cc:902- -/
def hm_sub_table : Branch :=
  ⟨.hm, false, true,
    [⟨0, 0, false, .sub, false, 0, 0, false⟩, ⟨0, 0, true, .sub, false, 0, 0, true⟩, ⟨0, 1, false, .sub, false, 0, 1, false⟩, ⟨0, 1, true, .sub, false, 0, 1, true⟩, ⟨0, 2, false, .sub, false, 0, 2, false⟩, ⟨0, 2, true, .sub, false, 0, 2, true⟩, ⟨1, 0, false, .sub, false, 1, 0, false⟩, ⟨1, 0, true, .sub, false, 1, 0, true⟩, ⟨1, 1, false, .sub, false, 1, 1, false⟩, ⟨1, 1, true, .sub, false, 1, 1, true⟩, ⟨1, 2, false, .sub, false, 1, 2, false⟩, ⟨1, 2, true, .sub, false, 1, 2, true⟩, ⟨2, 0, false, .sub, false, 2, 0, false⟩, ⟨2, 0, true, .sub, false, 2, 0, true⟩, ⟨2, 1, false, .sub, false, 2, 1, false⟩, ⟨2, 1, true, .sub, false, 2, 1, true⟩, ⟨2, 2, false, .sub, false, 2, 2, false⟩, ⟨2, 2, true, .sub, false, 2, 2, true⟩]⟩

/-- lib/scalarsite_sse/qdp_scalarsite_sse.cc:956- -/
def mh_sub_ordered : Branch :=
  ⟨.mh, false, true,
    [⟨0, 0, false, .sub, false, 0, 0, false⟩, ⟨0, 0, true, .sub, false, 0, 0, true⟩, ⟨0, 1, false, .sub, false, 0, 1, false⟩, ⟨0, 1, true, .sub, false, 0, 1, true⟩, ⟨0, 2, false, .sub, false, 0, 2, false⟩, ⟨0, 2, true, .sub, false, 0, 2, true⟩, ⟨1, 0, false, .sub, false, 1, 0, false⟩, ⟨1, 0, true, .sub, false, 1, 0, true⟩, ⟨1, 1, false, .sub, false, 1, 1, false⟩, ⟨1, 1, true, .sub, false, 1, 1, true⟩, ⟨1, 2, false, .sub, false, 1, 2, false⟩, ⟨1, 2, true, .sub, false, 1, 2, true⟩, ⟨2, 0, false, .sub, false, 2, 0, false⟩, ⟨2, 0, true, .sub, false, 2, 0, true⟩, ⟨2, 1, false, .sub, false, 2, 1, false⟩, ⟨2, 1, true, .sub, false, 2, 1, true⟩, ⟨2, 2, false, .sub, false, 2, 2, false⟩, ⟨2, 2, true, .sub, false, 2, 2, true⟩]⟩

/-- lib/scalarsite_sse/qdp_scalarsite_sse.cc:987- -/
def mh_sub_table : Branch :=
  ⟨.mh, false, true,
    [⟨0, 0, false, .sub, false, 0, 0, false⟩, ⟨0, 0, true, .sub, false, 0, 0, true⟩, ⟨0, 1, false, .sub, false, 0, 1, false⟩, ⟨0, 1, true, .sub, false, 0, 1, true⟩, ⟨0, 2, false, .sub, false, 0, 2, false⟩, ⟨0, 2, true, .sub, false, 0, 2, true⟩, ⟨1, 0, false, .sub, false, 1, 0, false⟩, ⟨1, 0, true, .sub, false, 1, 0, true⟩, ⟨1, 1, false, .sub, false, 1, 1, false⟩, ⟨1, 1, true, .sub, false, 1, 1, true⟩, ⟨1, 2, false, .sub, false, 1, 2, false⟩, ⟨1, 2, true, .sub, false, 1, 2, true⟩, ⟨2, 0, false, .sub, false, 2, 0, false⟩, ⟨2, 0, true, .sub, false, 2, 0, true⟩, ⟨2, 1, false, .sub, false, 2, 1, false⟩, ⟨2, 1, true, .sub, false, 2, 1, true⟩, ⟨2, 2, false, .sub, false, 2, 2, false⟩, ⟨2, 2, true, .sub, false, 2, 2, true⟩]⟩

/-- lib/scalarsite_sse/qdp_scalarsite_sse.cc:1040- -/
def hh_sub_ordered : Branch :=
  ⟨.mm, true, true,
    [⟨0, 0, false, .sub, false, 0, 0, false⟩, ⟨0, 0, true, .add, false, 0, 0, true⟩, ⟨0, 1, false, .sub, false, 1, 0, false⟩, ⟨0, 1, true, .add, false, 1, 0, true⟩, ⟨0, 2, false, .sub, false, 2, 0, false⟩, ⟨0, 2, true, .add, false, 2, 0, true⟩, ⟨1, 0, false, .sub, false, 0, 1, false⟩, ⟨1, 0, true, .add, false, 0, 1, true⟩, ⟨1, 1, false, .sub, false, 1, 1, false⟩, ⟨1, 1, true, .add, false, 1, 1, true⟩, ⟨1, 2, false, .sub, false, 2, 1, false⟩, ⟨1, 2, true, .add, false, 2, 1, true⟩, ⟨2, 0, false, .sub, false, 0, 2, false⟩, ⟨2, 0, true, .add, false, 0, 2, true⟩, ⟨2, 1, false, .sub, false, 1, 2, false⟩, ⟨2, 1, true, .add, false, 1, 2, true⟩, ⟨2, 2, false, .sub, false, 2, 2, false⟩, ⟨2, 2, true, .add, false, 2, 2, true⟩]⟩

/-- lib/scalarsite_sse/qdp_scalarsite_sse.cc:1073- -/
def hh_sub_table : Branch :=
  ⟨.mm, true, true,
    [⟨0, 0, false, .sub, false, 0, 0, false⟩, ⟨0, 0, true, .add, false, 0, 0, true⟩, ⟨0, 1, false, .sub, false, 1, 0, false⟩, ⟨0, 1, true, .add, false, 1, 0, true⟩, ⟨0, 2, false, .sub, false, 2, 0, false⟩, ⟨0, 2, true, .add, false, 2, 0, true⟩, ⟨1, 0, false, .sub, false, 0, 1, false⟩, ⟨1, 0, true, .add, false, 0, 1, true⟩, ⟨1, 1, false, .sub, false, 1, 1, false⟩, ⟨1, 1, true, .add, false, 1, 1, true⟩, ⟨1, 2, false, .sub, false, 2, 1, false⟩, ⟨1, 2, true, .add, false, 2, 1, true⟩, ⟨2, 0, false, .sub, false, 0, 2, false⟩, ⟨2, 0, true, .add, false, 0, 2, true⟩, ⟨2, 1, false, .sub, false, 1, 2, false⟩, ⟨2, 1, true, .add, false, 1, 2, true⟩, ⟨2, 2, false, .sub, false, 2, 2, false⟩, ⟨2, 2, true, .add, false, 2, 2, true⟩]⟩

/-- the branch of the statement `d op product` -/
def branch : Kind → Asg → Bool → Branch
  | .mm, .set, true => mm_set_ordered
  | .mm, .set, false => mm_set_table
  | .hm, .set, true => hm_set_ordered
  | .hm, .set, false => hm_set_table
  | .mh, .set, true => mh_set_ordered
  | .mh, .set, false => mh_set_table
  | .hh, .set, true => hh_set_ordered
  | .hh, .set, false => hh_set_table
  | .mm, .add, true => mm_add_ordered
  | .mm, .add, false => mm_add_table
  | .hm, .add, true => hm_add_ordered
  | .hm, .add, false => hm_add_table
  | .mh, .add, true => mh_add_ordered
  | .mh, .add, false => mh_add_table
  | .hh, .add, true => hh_add_ordered
  | .hh, .add, false => hh_add_table
  | .mm, .sub, true => mm_sub_ordered
  | .mm, .sub, false => mm_sub_table
  | .hm, .sub, true => hm_sub_ordered
  | .hm, .sub, false => hm_sub_table
  | .mh, .sub, true => mh_sub_ordered
  | .mh, .sub, false => mh_sub_table
  | .hh, .sub, true => hh_sub_ordered
  | .hh, .sub, false => hh_sub_table

end Verif.SseSingle.Tables
