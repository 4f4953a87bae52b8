import Verif.Blas
import Verif.KernelTables
/-
The specialisations of `evaluate` for the vector kernels, written by tools/gen_entries.py from the text of the headers.
-/
namespace Verif.Blas.Tables
open Verif.Kernel Verif.Kernel.Tables Verif.Blas

/-- include/scalarsite_generic/qdp_scalarsite_generic_blas.h:53-111; user functions qdp_scalarsite_generic_blas_wrapper.h:24-39, 58-84 -/
def e00 : Entry := {
  op := .addAssign
  rhs := (.bin .mul .scal .vec)
  cplx := false
  ordered := ⟨vaxpy3, [.dest, .sc [.l], .at [.r], .dest]⟩
  unordered := ⟨vaxpy3, [.dest, .sc [.l], .at [.r], .dest]⟩ }

/-- include/scalarsite_generic/qdp_scalarsite_generic_blas.h:116-172; user functions qdp_scalarsite_generic_blas_wrapper.h:24-39, 58-84 -/
def e01 : Entry := {
  op := .subtractAssign
  rhs := (.bin .mul .scal .vec)
  cplx := false
  ordered := ⟨vaxpy3, [.dest, .neg [.l], .at [.r], .dest]⟩
  unordered := ⟨vaxpy3, [.dest, .neg [.l], .at [.r], .dest]⟩ }

/-- include/scalarsite_generic/qdp_scalarsite_generic_blas.h:177-252; user functions qdp_scalarsite_generic_blas_wrapper.h:24-39, 103-119 -/
def e02 : Entry := {
  op := .assign
  rhs := (.bin .add (.bin .mul .scal .vec) .vec)
  cplx := false
  ordered := ⟨vaxpy3, [.dest, .sc [.l, .l], .at [.l, .r], .at [.r]]⟩
  unordered := ⟨vaxpy3, [.dest, .sc [.l, .l], .at [.l, .r], .at [.r]]⟩ }

/-- include/scalarsite_generic/qdp_scalarsite_generic_blas.h:258-336; user functions qdp_scalarsite_generic_blas_wrapper.h:24-39, 103-119 -/
def e03 : Entry := {
  op := .assign
  rhs := (.bin .add .vec (.bin .mul .scal .vec))
  cplx := false
  ordered := ⟨vaxpy3, [.dest, .sc [.r, .l], .at [.r, .r], .at [.l]]⟩
  unordered := ⟨vaxpy3, [.dest, .sc [.r, .l], .at [.r, .r], .at [.l]]⟩ }

/-- include/scalarsite_generic/qdp_scalarsite_generic_blas.h:341-414; user functions qdp_scalarsite_generic_blas_wrapper.h:136-151, 201-217 -/
def e04 : Entry := {
  op := .assign
  rhs := (.bin .sub (.bin .mul .scal .vec) .vec)
  cplx := false
  ordered := ⟨vaxmy3, [.dest, .sc [.l, .l], .at [.l, .r], .at [.r]]⟩
  unordered := ⟨vaxmy3, [.dest, .sc [.l, .l], .at [.l, .r], .at [.r]]⟩ }

/-- include/scalarsite_generic/qdp_scalarsite_generic_blas.h:418-494; user functions qdp_scalarsite_generic_blas_wrapper.h:24-39, 103-119 -/
def e05 : Entry := {
  op := .assign
  rhs := (.bin .sub .vec (.bin .mul .scal .vec))
  cplx := false
  ordered := ⟨vaxpy3, [.dest, .neg [.r, .l], .at [.r, .r], .at [.l]]⟩
  unordered := ⟨vaxpy3, [.dest, .neg [.r, .l], .at [.r, .r], .at [.l]]⟩ }

/-- include/scalarsite_generic/qdp_scalarsite_generic_blas.h:499-561; user functions qdp_scalarsite_generic_blas_wrapper.h:24-39, 58-84 -/
def e06 : Entry := {
  op := .addAssign
  rhs := (.bin .mul .vec .scal)
  cplx := false
  ordered := ⟨vaxpy3, [.dest, .sc [.r], .at [.l], .dest]⟩
  unordered := ⟨vaxpy3, [.dest, .sc [.r], .at [.l], .dest]⟩ }

/-- include/scalarsite_generic/qdp_scalarsite_generic_blas.h:567-628; user functions qdp_scalarsite_generic_blas_wrapper.h:24-39, 58-84 -/
def e07 : Entry := {
  op := .subtractAssign
  rhs := (.bin .mul .vec .scal)
  cplx := false
  ordered := ⟨vaxpy3, [.dest, .neg [.r], .at [.l], .dest]⟩
  unordered := ⟨vaxpy3, [.dest, .neg [.r], .at [.l], .dest]⟩ }

/-- include/scalarsite_generic/qdp_scalarsite_generic_blas.h:634-712; user functions qdp_scalarsite_generic_blas_wrapper.h:24-39, 103-119 -/
def e08 : Entry := {
  op := .assign
  rhs := (.bin .add (.bin .mul .vec .scal) .vec)
  cplx := false
  ordered := ⟨vaxpy3, [.dest, .sc [.l, .r], .at [.l, .l], .at [.r]]⟩
  unordered := ⟨vaxpy3, [.dest, .sc [.l, .r], .at [.l, .l], .at [.r]]⟩ }

/-- include/scalarsite_generic/qdp_scalarsite_generic_blas.h:718-798; user functions qdp_scalarsite_generic_blas_wrapper.h:24-39, 103-119 -/
def e09 : Entry := {
  op := .assign
  rhs := (.bin .add .vec (.bin .mul .vec .scal))
  cplx := false
  ordered := ⟨vaxpy3, [.dest, .sc [.r, .r], .at [.r, .l], .at [.l]]⟩
  unordered := ⟨vaxpy3, [.dest, .sc [.r, .r], .at [.r, .l], .at [.l]]⟩ }

/-- include/scalarsite_generic/qdp_scalarsite_generic_blas.h:804-877; user functions qdp_scalarsite_generic_blas_wrapper.h:136-151, 201-217 -/
def e10 : Entry := {
  op := .assign
  rhs := (.bin .sub (.bin .mul .vec .scal) .vec)
  cplx := false
  ordered := ⟨vaxmy3, [.dest, .sc [.l, .r], .at [.l, .l], .at [.r]]⟩
  unordered := ⟨vaxmy3, [.dest, .sc [.l, .r], .at [.l, .l], .at [.r]]⟩ }

/-- include/scalarsite_generic/qdp_scalarsite_generic_blas.h:883-960; user functions qdp_scalarsite_generic_blas_wrapper.h:24-39, 103-119 -/
def e11 : Entry := {
  op := .assign
  rhs := (.bin .sub .vec (.bin .mul .vec .scal))
  cplx := false
  ordered := ⟨vaxpy3, [.dest, .neg [.r, .r], .at [.r, .l], .at [.l]]⟩
  unordered := ⟨vaxpy3, [.dest, .neg [.r, .r], .at [.r, .l], .at [.l]]⟩ }

/-- include/scalarsite_generic/qdp_scalarsite_generic_blas.h:965-1028; user functions qdp_scalarsite_generic_blas_wrapper.h:24-39, 103-119 -/
def e12 : Entry := {
  op := .assign
  rhs := (.bin .add .vec .vec)
  cplx := false
  ordered := ⟨vaxpy3, [.dest, .one, .at [.l], .at [.r]]⟩
  unordered := ⟨vaxpy3, [.dest, .one, .at [.l], .at [.r]]⟩ }

/-- include/scalarsite_generic/qdp_scalarsite_generic_blas.h:1032-1092; user functions qdp_scalarsite_generic_blas_wrapper.h:136-151, 201-217 -/
def e13 : Entry := {
  op := .assign
  rhs := (.bin .sub .vec .vec)
  cplx := false
  ordered := ⟨vaxmy3, [.dest, .one, .at [.l], .at [.r]]⟩
  unordered := ⟨vaxmy3, [.dest, .one, .at [.l], .at [.r]]⟩ }

/-- include/scalarsite_generic/qdp_scalarsite_generic_blas.h:1097-1153; user functions qdp_scalarsite_generic_blas_wrapper.h:233-244, 263-277 -/
def e14 : Entry := {
  op := .assign
  rhs := (.bin .mul .scal .vec)
  cplx := false
  ordered := ⟨vscal, [.dest, .sc [.l], .at [.r]]⟩
  unordered := ⟨vscal, [.dest, .sc [.l], .at [.r]]⟩ }

/-- include/scalarsite_generic/qdp_scalarsite_generic_blas.h:1157-1212; user functions qdp_scalarsite_generic_blas_wrapper.h:233-244, 263-277 -/
def e15 : Entry := {
  op := .assign
  rhs := (.bin .mul .vec .scal)
  cplx := false
  ordered := ⟨vscal, [.dest, .sc [.r], .at [.l]]⟩
  unordered := ⟨vscal, [.dest, .sc [.r], .at [.l]]⟩ }

/-- include/scalarsite_generic/qdp_scalarsite_generic_blas.h:1217-1271; user functions qdp_scalarsite_generic_blas_wrapper.h:233-244, 263-277 -/
def e16 : Entry := {
  op := .multiplyAssign
  rhs := (.un .id .scal)
  cplx := false
  ordered := ⟨vscal, [.dest, .sc [.c], .dest]⟩
  unordered := ⟨vscal, [.dest, .sc [.c], .dest]⟩ }

/-- include/scalarsite_generic/qdp_scalarsite_generic_blas.h:1276-1329; user functions qdp_scalarsite_generic_blas_wrapper.h:233-244, 263-277 -/
def e17 : Entry := {
  op := .divideAssign
  rhs := (.un .id .scal)
  cplx := false
  ordered := ⟨vscal, [.dest, .inv [.c], .dest]⟩
  unordered := ⟨vscal, [.dest, .inv [.c], .dest]⟩ }

/-- include/scalarsite_generic/qdp_scalarsite_generic_blas.h:1334-1395; user functions qdp_scalarsite_generic_blas_wrapper.h:24-39, 58-84 -/
def e18 : Entry := {
  op := .addAssign
  rhs := (.un .id .vec)
  cplx := false
  ordered := ⟨vaxpy3, [.dest, .one, .dest, .at [.c]]⟩
  unordered := ⟨vaxpy3, [.dest, .one, .dest, .at [.c]]⟩ }

/-- include/scalarsite_generic/qdp_scalarsite_generic_blas.h:1400-1456; user functions qdp_scalarsite_generic_blas_wrapper.h:136-151, 168-181 -/
def e19 : Entry := {
  op := .subtractAssign
  rhs := (.un .id .vec)
  cplx := false
  ordered := ⟨vaxmy3, [.dest, .one, .dest, .at [.c]]⟩
  unordered := ⟨vaxmy3, [.dest, .one, .dest, .at [.c]]⟩ }

/-- include/scalarsite_generic/qdp_scalarsite_generic_blas.h:1462-1547; user functions qdp_scalarsite_generic_blas_wrapper.h:296-310, 330-350 -/
def e20 : Entry := {
  op := .assign
  rhs := (.bin .add (.bin .mul .scal .vec) (.bin .mul .scal .vec))
  cplx := false
  ordered := ⟨vaxpby3, [.dest, .sc [.l, .l], .at [.l, .r], .sc [.r, .l], .at [.r, .r]]⟩
  unordered := ⟨vaxpby3, [.dest, .sc [.l, .l], .at [.l, .r], .sc [.r, .l], .at [.r, .r]]⟩ }

/-- include/scalarsite_generic/qdp_scalarsite_generic_blas.h:1553-1645; user functions qdp_scalarsite_generic_blas_wrapper.h:296-310, 330-350 -/
def e21 : Entry := {
  op := .assign
  rhs := (.bin .add (.bin .mul .vec .scal) (.bin .mul .scal .vec))
  cplx := false
  ordered := ⟨vaxpby3, [.dest, .sc [.l, .r], .at [.l, .l], .sc [.r, .l], .at [.r, .r]]⟩
  unordered := ⟨vaxpby3, [.dest, .sc [.l, .r], .at [.l, .l], .sc [.r, .l], .at [.r, .r]]⟩ }

/-- include/scalarsite_generic/qdp_scalarsite_generic_blas.h:1650-1748; user functions qdp_scalarsite_generic_blas_wrapper.h:296-310, 330-350 -/
def e22 : Entry := {
  op := .assign
  rhs := (.bin .add (.bin .mul .scal .vec) (.bin .mul .vec .scal))
  cplx := false
  ordered := ⟨vaxpby3, [.dest, .sc [.l, .l], .at [.l, .r], .sc [.r, .r], .at [.r, .l]]⟩
  unordered := ⟨vaxpby3, [.dest, .sc [.l, .l], .at [.l, .r], .sc [.r, .r], .at [.r, .l]]⟩ }

/-- include/scalarsite_generic/qdp_scalarsite_generic_blas.h:1753-1838; user functions qdp_scalarsite_generic_blas_wrapper.h:296-310, 330-350 -/
def e23 : Entry := {
  op := .assign
  rhs := (.bin .add (.bin .mul .vec .scal) (.bin .mul .vec .scal))
  cplx := false
  ordered := ⟨vaxpby3, [.dest, .sc [.l, .r], .at [.l, .l], .sc [.r, .r], .at [.r, .l]]⟩
  unordered := ⟨vaxpby3, [.dest, .sc [.l, .r], .at [.l, .l], .sc [.r, .r], .at [.r, .l]]⟩ }

/-- include/scalarsite_generic/qdp_scalarsite_generic_blas.h:1843-1928; user functions qdp_scalarsite_generic_blas_wrapper.h:369-383, 404-424 -/
def e24 : Entry := {
  op := .assign
  rhs := (.bin .sub (.bin .mul .scal .vec) (.bin .mul .scal .vec))
  cplx := false
  ordered := ⟨vaxmby3, [.dest, .sc [.l, .l], .at [.l, .r], .sc [.r, .l], .at [.r, .r]]⟩
  unordered := ⟨vaxmby3, [.dest, .sc [.l, .l], .at [.l, .r], .sc [.r, .l], .at [.r, .r]]⟩ }

/-- include/scalarsite_generic/qdp_scalarsite_generic_blas.h:1934-2026; user functions qdp_scalarsite_generic_blas_wrapper.h:369-383, 404-424 -/
def e25 : Entry := {
  op := .assign
  rhs := (.bin .sub (.bin .mul .vec .scal) (.bin .mul .scal .vec))
  cplx := false
  ordered := ⟨vaxmby3, [.dest, .sc [.l, .r], .at [.l, .l], .sc [.r, .l], .at [.r, .r]]⟩
  unordered := ⟨vaxmby3, [.dest, .sc [.l, .r], .at [.l, .l], .sc [.r, .l], .at [.r, .r]]⟩ }

/-- include/scalarsite_generic/qdp_scalarsite_generic_blas.h:2031-2129; user functions qdp_scalarsite_generic_blas_wrapper.h:369-383, 404-424 -/
def e26 : Entry := {
  op := .assign
  rhs := (.bin .sub (.bin .mul .scal .vec) (.bin .mul .vec .scal))
  cplx := false
  ordered := ⟨vaxmby3, [.dest, .sc [.l, .l], .at [.l, .r], .sc [.r, .r], .at [.r, .l]]⟩
  unordered := ⟨vaxmby3, [.dest, .sc [.l, .l], .at [.l, .r], .sc [.r, .r], .at [.r, .l]]⟩ }

/-- include/scalarsite_generic/qdp_scalarsite_generic_blas.h:2134-2219; user functions qdp_scalarsite_generic_blas_wrapper.h:369-383, 404-424 -/
def e27 : Entry := {
  op := .assign
  rhs := (.bin .sub (.bin .mul .vec .scal) (.bin .mul .vec .scal))
  cplx := false
  ordered := ⟨vaxmby3, [.dest, .sc [.l, .r], .at [.l, .l], .sc [.r, .r], .at [.r, .l]]⟩
  unordered := ⟨vaxmby3, [.dest, .sc [.l, .r], .at [.l, .l], .sc [.r, .r], .at [.r, .l]]⟩ }

/-- include/scalarsite_generic/qdp_scalarsite_generic_cblas.h:29-82; user functions qdp_scalarsite_generic_cblas_wrapper.h:23-34, 52-65 -/
def e28 : Entry := {
  op := .multiplyAssign
  rhs := (.un .id .scal)
  cplx := true
  ordered := ⟨vcscal, [.dest, .sc [.c], .dest]⟩
  unordered := ⟨vcscal, [.dest, .sc [.c], .dest]⟩ }

/-- include/scalarsite_generic/qdp_scalarsite_generic_cblas.h:88-150; user functions qdp_scalarsite_generic_cblas_wrapper.h:23-34, 52-65 -/
def e29 : Entry := {
  op := .assign
  rhs := (.bin .mul .scal .vec)
  cplx := true
  ordered := ⟨vcscal, [.dest, .sc [.l], .at [.r]]⟩
  unordered := ⟨vcscal, [.dest, .sc [.l], .at [.r]]⟩ }

/-- include/scalarsite_generic/qdp_scalarsite_generic_cblas.h:155-213; user functions qdp_scalarsite_generic_cblas_wrapper.h:23-34, 52-65 -/
def e30 : Entry := {
  op := .assign
  rhs := (.bin .mul .vec .scal)
  cplx := true
  ordered := ⟨vcscal, [.dest, .sc [.r], .at [.l]]⟩
  unordered := ⟨vcscal, [.dest, .sc [.r], .at [.l]]⟩ }

/-- include/scalarsite_generic/qdp_scalarsite_generic_cblas.h:221-280; user functions qdp_scalarsite_generic_cblas_wrapper.h:84-97, 115-131 -/
def e31 : Entry := {
  op := .addAssign
  rhs := (.bin .mul .scal .vec)
  cplx := true
  ordered := ⟨vcaxpy3, [.dest, .sc [.l], .at [.r], .dest]⟩
  unordered := ⟨vcaxpy3, [.dest, .sc [.l], .at [.r], .dest]⟩ }

/-- include/scalarsite_generic/qdp_scalarsite_generic_cblas.h:285-342; user functions qdp_scalarsite_generic_cblas_wrapper.h:84-97, 115-131 -/
def e32 : Entry := {
  op := .addAssign
  rhs := (.bin .mul .vec .scal)
  cplx := true
  ordered := ⟨vcaxpy3, [.dest, .sc [.r], .at [.l], .dest]⟩
  unordered := ⟨vcaxpy3, [.dest, .sc [.r], .at [.l], .dest]⟩ }

/-- include/scalarsite_generic/qdp_scalarsite_generic_cblas.h:347-408; user functions qdp_scalarsite_generic_cblas_wrapper.h:84-97, 115-131 -/
def e33 : Entry := {
  op := .subtractAssign
  rhs := (.bin .mul .scal .vec)
  cplx := true
  ordered := ⟨vcaxpy3, [.dest, .neg [.l], .at [.r], .dest]⟩
  unordered := ⟨vcaxpy3, [.dest, .neg [.l], .at [.r], .dest]⟩ }

/-- include/scalarsite_generic/qdp_scalarsite_generic_cblas.h:413-472; user functions qdp_scalarsite_generic_cblas_wrapper.h:84-97, 115-131 -/
def e34 : Entry := {
  op := .subtractAssign
  rhs := (.bin .mul .vec .scal)
  cplx := true
  ordered := ⟨vcaxpy3, [.dest, .neg [.r], .at [.l], .dest]⟩
  unordered := ⟨vcaxpy3, [.dest, .neg [.r], .at [.l], .dest]⟩ }

/-- include/scalarsite_generic/qdp_scalarsite_generic_cblas.h:477-555; user functions qdp_scalarsite_generic_cblas_wrapper.h:84-97, 151-169 -/
def e35 : Entry := {
  op := .assign
  rhs := (.bin .add (.bin .mul .scal .vec) .vec)
  cplx := true
  ordered := ⟨vcaxpy3, [.dest, .sc [.l, .l], .at [.l, .r], .at [.r]]⟩
  unordered := ⟨vcaxpy3, [.dest, .sc [.l, .l], .at [.l, .r], .at [.r]]⟩ }

/-- include/scalarsite_generic/qdp_scalarsite_generic_cblas.h:560-638; user functions qdp_scalarsite_generic_cblas_wrapper.h:84-97, 151-169 -/
def e36 : Entry := {
  op := .assign
  rhs := (.bin .add (.bin .mul .vec .scal) .vec)
  cplx := true
  ordered := ⟨vcaxpy3, [.dest, .sc [.l, .r], .at [.l, .l], .at [.r]]⟩
  unordered := ⟨vcaxpy3, [.dest, .sc [.l, .r], .at [.l, .l], .at [.r]]⟩ }

/-- include/scalarsite_generic/qdp_scalarsite_generic_cblas.h:643-720; user functions qdp_scalarsite_generic_cblas_wrapper.h:189-202, 222-240 -/
def e37 : Entry := {
  op := .assign
  rhs := (.bin .sub (.bin .mul .scal .vec) .vec)
  cplx := true
  ordered := ⟨vcaxmy3, [.dest, .sc [.l, .l], .at [.l, .r], .at [.r]]⟩
  unordered := ⟨vcaxmy3, [.dest, .sc [.l, .l], .at [.l, .r], .at [.r]]⟩ }

/-- include/scalarsite_generic/qdp_scalarsite_generic_cblas.h:725-804; user functions qdp_scalarsite_generic_cblas_wrapper.h:189-202, 222-240 -/
def e38 : Entry := {
  op := .assign
  rhs := (.bin .sub (.bin .mul .vec .scal) .vec)
  cplx := true
  ordered := ⟨vcaxmy3, [.dest, .sc [.l, .r], .at [.l, .l], .at [.r]]⟩
  unordered := ⟨vcaxmy3, [.dest, .sc [.l, .r], .at [.l, .l], .at [.r]]⟩ }

/-- include/scalarsite_generic/qdp_scalarsite_generic_cblas.h:810-888; user functions qdp_scalarsite_generic_cblas_wrapper.h:84-97, 151-169 -/
def e39 : Entry := {
  op := .assign
  rhs := (.bin .add .vec (.bin .mul .scal .vec))
  cplx := true
  ordered := ⟨vcaxpy3, [.dest, .sc [.r, .l], .at [.r, .r], .at [.l]]⟩
  unordered := ⟨vcaxpy3, [.dest, .sc [.r, .l], .at [.r, .r], .at [.l]]⟩ }

/-- include/scalarsite_generic/qdp_scalarsite_generic_cblas.h:894-975; user functions qdp_scalarsite_generic_cblas_wrapper.h:84-97, 151-169 -/
def e40 : Entry := {
  op := .assign
  rhs := (.bin .add .vec (.bin .mul .vec .scal))
  cplx := true
  ordered := ⟨vcaxpy3, [.dest, .sc [.r, .r], .at [.r, .l], .at [.l]]⟩
  unordered := ⟨vcaxpy3, [.dest, .sc [.r, .r], .at [.r, .l], .at [.l]]⟩ }

/-- include/scalarsite_generic/qdp_scalarsite_generic_cblas.h:980-1061; user functions qdp_scalarsite_generic_cblas_wrapper.h:84-97, 151-169 -/
def e41 : Entry := {
  op := .assign
  rhs := (.bin .sub .vec (.bin .mul .scal .vec))
  cplx := true
  ordered := ⟨vcaxpy3, [.dest, .neg [.r, .l], .at [.r, .r], .at [.l]]⟩
  unordered := ⟨vcaxpy3, [.dest, .neg [.r, .l], .at [.r, .r], .at [.l]]⟩ }

/-- include/scalarsite_generic/qdp_scalarsite_generic_cblas.h:1067-1149; user functions qdp_scalarsite_generic_cblas_wrapper.h:84-97, 151-169 -/
def e42 : Entry := {
  op := .assign
  rhs := (.bin .sub .vec (.bin .mul .vec .scal))
  cplx := true
  ordered := ⟨vcaxpy3, [.dest, .neg [.r, .r], .at [.r, .l], .at [.l]]⟩
  unordered := ⟨vcaxpy3, [.dest, .neg [.r, .r], .at [.r, .l], .at [.l]]⟩ }

/-- include/scalarsite_generic/qdp_scalarsite_generic_cblas.h:1155-1242; user functions qdp_scalarsite_generic_cblas_wrapper.h:259-273, 295-314 -/
def e43 : Entry := {
  op := .assign
  rhs := (.bin .add (.bin .mul .scal .vec) (.bin .mul .scal .vec))
  cplx := true
  ordered := ⟨vcaxpby3, [.dest, .sc [.l, .l], .at [.l, .r], .sc [.r, .l], .at [.r, .r]]⟩
  unordered := ⟨vcaxpby3, [.dest, .sc [.l, .l], .at [.l, .r], .sc [.r, .l], .at [.r, .r]]⟩ }

/-- include/scalarsite_generic/qdp_scalarsite_generic_cblas.h:1248-1341; user functions qdp_scalarsite_generic_cblas_wrapper.h:259-273, 295-314 -/
def e44 : Entry := {
  op := .assign
  rhs := (.bin .add (.bin .mul .vec .scal) (.bin .mul .scal .vec))
  cplx := true
  ordered := ⟨vcaxpby3, [.dest, .sc [.l, .r], .at [.l, .l], .sc [.r, .l], .at [.r, .r]]⟩
  unordered := ⟨vcaxpby3, [.dest, .sc [.l, .r], .at [.l, .l], .sc [.r, .l], .at [.r, .r]]⟩ }

/-- include/scalarsite_generic/qdp_scalarsite_generic_cblas.h:1346-1445; user functions qdp_scalarsite_generic_cblas_wrapper.h:259-273, 295-314 -/
def e45 : Entry := {
  op := .assign
  rhs := (.bin .add (.bin .mul .scal .vec) (.bin .mul .vec .scal))
  cplx := true
  ordered := ⟨vcaxpby3, [.dest, .sc [.l, .l], .at [.l, .r], .sc [.r, .r], .at [.r, .l]]⟩
  unordered := ⟨vcaxpby3, [.dest, .sc [.l, .l], .at [.l, .r], .sc [.r, .r], .at [.r, .l]]⟩ }

/-- include/scalarsite_generic/qdp_scalarsite_generic_cblas.h:1450-1536; user functions qdp_scalarsite_generic_cblas_wrapper.h:259-273, 295-314 -/
def e46 : Entry := {
  op := .assign
  rhs := (.bin .add (.bin .mul .vec .scal) (.bin .mul .vec .scal))
  cplx := true
  ordered := ⟨vcaxpby3, [.dest, .sc [.l, .r], .at [.l, .l], .sc [.r, .r], .at [.r, .l]]⟩
  unordered := ⟨vcaxpby3, [.dest, .sc [.l, .r], .at [.l, .l], .sc [.r, .r], .at [.r, .l]]⟩ }

/-- include/scalarsite_generic/qdp_scalarsite_generic_cblas.h:1541-1628; user functions qdp_scalarsite_generic_cblas_wrapper.h:333-347, 369-388 -/
def e47 : Entry := {
  op := .assign
  rhs := (.bin .sub (.bin .mul .scal .vec) (.bin .mul .scal .vec))
  cplx := true
  ordered := ⟨vcaxmby3, [.dest, .sc [.l, .l], .at [.l, .r], .sc [.r, .l], .at [.r, .r]]⟩
  unordered := ⟨vcaxmby3, [.dest, .sc [.l, .l], .at [.l, .r], .sc [.r, .l], .at [.r, .r]]⟩ }

/-- include/scalarsite_generic/qdp_scalarsite_generic_cblas.h:1634-1727; user functions qdp_scalarsite_generic_cblas_wrapper.h:333-347, 369-388 -/
def e48 : Entry := {
  op := .assign
  rhs := (.bin .sub (.bin .mul .vec .scal) (.bin .mul .scal .vec))
  cplx := true
  ordered := ⟨vcaxmby3, [.dest, .sc [.l, .r], .at [.l, .l], .sc [.r, .l], .at [.r, .r]]⟩
  unordered := ⟨vcaxmby3, [.dest, .sc [.l, .r], .at [.l, .l], .sc [.r, .l], .at [.r, .r]]⟩ }

/-- include/scalarsite_generic/qdp_scalarsite_generic_cblas.h:1732-1831; user functions qdp_scalarsite_generic_cblas_wrapper.h:333-347, 369-388 -/
def e49 : Entry := {
  op := .assign
  rhs := (.bin .sub (.bin .mul .scal .vec) (.bin .mul .vec .scal))
  cplx := true
  ordered := ⟨vcaxmby3, [.dest, .sc [.l, .l], .at [.l, .r], .sc [.r, .r], .at [.r, .l]]⟩
  unordered := ⟨vcaxmby3, [.dest, .sc [.l, .l], .at [.l, .r], .sc [.r, .r], .at [.r, .l]]⟩ }

/-- include/scalarsite_generic/qdp_scalarsite_generic_cblas.h:1836-1922; user functions qdp_scalarsite_generic_cblas_wrapper.h:333-347, 369-388 -/
def e50 : Entry := {
  op := .assign
  rhs := (.bin .sub (.bin .mul .vec .scal) (.bin .mul .vec .scal))
  cplx := true
  ordered := ⟨vcaxmby3, [.dest, .sc [.l, .r], .at [.l, .l], .sc [.r, .r], .at [.r, .l]]⟩
  unordered := ⟨vcaxmby3, [.dest, .sc [.l, .r], .at [.l, .l], .sc [.r, .r], .at [.r, .l]]⟩ }

/-- include/scalarsite_generic/qdp_scalarsite_generic_blas_g5.h:51-113; user functions qdp_scalarsite_generic_blas_g5_wrapper.h:25-42, 65-80 -/
def e51 : Entry := {
  op := .addAssign
  rhs := (.bin .mul .scal (.un .projPlus .vec))
  cplx := false
  ordered := ⟨xpayz_g5ProjPlus, [.dest, .sc [.l], .dest, .at [.r, .c]]⟩
  unordered := ⟨xpayz_g5ProjPlus, [.dest, .sc [.l], .dest, .at [.r, .c]]⟩ }

/-- include/scalarsite_generic/qdp_scalarsite_generic_blas_g5.h:118-178; user functions qdp_scalarsite_generic_blas_g5_wrapper.h:25-42, 65-80 -/
def e52 : Entry := {
  op := .addAssign
  rhs := (.bin .mul .scal (.un .projMinus .vec))
  cplx := false
  ordered := ⟨xpayz_g5ProjMinus, [.dest, .sc [.l], .dest, .at [.r, .c]]⟩
  unordered := ⟨xpayz_g5ProjMinus, [.dest, .sc [.l], .dest, .at [.r, .c]]⟩ }

/-- include/scalarsite_generic/qdp_scalarsite_generic_blas_g5.h:184-243; user functions qdp_scalarsite_generic_blas_g5_wrapper.h:25-42, 65-80 -/
def e53 : Entry := {
  op := .subtractAssign
  rhs := (.bin .mul .scal (.un .projPlus .vec))
  cplx := false
  ordered := ⟨xmayz_g5ProjPlus, [.dest, .sc [.l], .dest, .at [.r, .c]]⟩
  unordered := ⟨xmayz_g5ProjPlus, [.dest, .sc [.l], .dest, .at [.r, .c]]⟩ }

/-- include/scalarsite_generic/qdp_scalarsite_generic_blas_g5.h:248-308; user functions qdp_scalarsite_generic_blas_g5_wrapper.h:25-42, 65-80 -/
def e54 : Entry := {
  op := .subtractAssign
  rhs := (.bin .mul .scal (.un .projMinus .vec))
  cplx := false
  ordered := ⟨xmayz_g5ProjMinus, [.dest, .sc [.l], .dest, .at [.r, .c]]⟩
  unordered := ⟨xmayz_g5ProjMinus, [.dest, .sc [.l], .dest, .at [.r, .c]]⟩ }

/-- include/scalarsite_generic/qdp_scalarsite_generic_blas_g5.h:314-368; user functions qdp_scalarsite_generic_blas_g5_wrapper.h:142-158, 177-191 -/
def e55 : Entry := {
  op := .addAssign
  rhs := (.un .projPlus .vec)
  cplx := false
  ordered := ⟨add_g5ProjPlus, [.dest, .dest, .at [.c]]⟩
  unordered := ⟨add_g5ProjPlus, [.dest, .dest, .at [.c]]⟩ }

/-- include/scalarsite_generic/qdp_scalarsite_generic_blas_g5.h:374-428; user functions qdp_scalarsite_generic_blas_g5_wrapper.h:142-158, 177-191 -/
def e56 : Entry := {
  op := .addAssign
  rhs := (.un .projMinus .vec)
  cplx := false
  ordered := ⟨add_g5ProjMinus, [.dest, .dest, .at [.c]]⟩
  unordered := ⟨add_g5ProjMinus, [.dest, .dest, .at [.c]]⟩ }

/-- include/scalarsite_generic/qdp_scalarsite_generic_blas_g5.h:434-487; user functions qdp_scalarsite_generic_blas_g5_wrapper.h:142-158, 177-191 -/
def e57 : Entry := {
  op := .subtractAssign
  rhs := (.un .projPlus .vec)
  cplx := false
  ordered := ⟨sub_g5ProjPlus, [.dest, .dest, .at [.c]]⟩
  unordered := ⟨sub_g5ProjPlus, [.dest, .dest, .at [.c]]⟩ }

/-- include/scalarsite_generic/qdp_scalarsite_generic_blas_g5.h:493-546; user functions qdp_scalarsite_generic_blas_g5_wrapper.h:142-158, 177-191 -/
def e58 : Entry := {
  op := .subtractAssign
  rhs := (.un .projMinus .vec)
  cplx := false
  ordered := ⟨sub_g5ProjMinus, [.dest, .dest, .at [.c]]⟩
  unordered := ⟨sub_g5ProjMinus, [.dest, .dest, .at [.c]]⟩ }

/-- include/scalarsite_generic/qdp_scalarsite_generic_blas_g5.h:551-634; user functions qdp_scalarsite_generic_blas_g5_wrapper.h:25-42, 105-125 -/
def e59 : Entry := {
  op := .assign
  rhs := (.bin .add .vec (.bin .mul .scal (.un .projPlus .vec)))
  cplx := false
  ordered := ⟨xpayz_g5ProjPlus, [.dest, .sc [.r, .l], .at [.l], .at [.r, .r, .c]]⟩
  unordered := ⟨xpayz_g5ProjPlus, [.dest, .sc [.r, .l], .at [.l], .at [.r, .r, .c]]⟩ }

/-- include/scalarsite_generic/qdp_scalarsite_generic_blas_g5.h:639-722; user functions qdp_scalarsite_generic_blas_g5_wrapper.h:25-42, 105-125 -/
def e60 : Entry := {
  op := .assign
  rhs := (.bin .add .vec (.bin .mul .scal (.un .projMinus .vec)))
  cplx := false
  ordered := ⟨xpayz_g5ProjMinus, [.dest, .sc [.r, .l], .at [.l], .at [.r, .r, .c]]⟩
  unordered := ⟨xpayz_g5ProjMinus, [.dest, .sc [.r, .l], .at [.l], .at [.r, .r, .c]]⟩ }

/-- include/scalarsite_generic/qdp_scalarsite_generic_blas_g5.h:727-810; user functions qdp_scalarsite_generic_blas_g5_wrapper.h:25-42, 105-125 -/
def e61 : Entry := {
  op := .assign
  rhs := (.bin .sub .vec (.bin .mul .scal (.un .projPlus .vec)))
  cplx := false
  ordered := ⟨xmayz_g5ProjPlus, [.dest, .sc [.r, .l], .at [.l], .at [.r, .r, .c]]⟩
  unordered := ⟨xmayz_g5ProjPlus, [.dest, .sc [.r, .l], .at [.l], .at [.r, .r, .c]]⟩ }

/-- include/scalarsite_generic/qdp_scalarsite_generic_blas_g5.h:815-897; user functions qdp_scalarsite_generic_blas_g5_wrapper.h:25-42, 105-125 -/
def e62 : Entry := {
  op := .assign
  rhs := (.bin .sub .vec (.bin .mul .scal (.un .projMinus .vec)))
  cplx := false
  ordered := ⟨xmayz_g5ProjMinus, [.dest, .sc [.r, .l], .at [.l], .at [.r, .r, .c]]⟩
  unordered := ⟨xmayz_g5ProjMinus, [.dest, .sc [.r, .l], .at [.l], .at [.r, .r, .c]]⟩ }

/-- include/scalarsite_generic/qdp_scalarsite_generic_blas_g5.h:902-980; user functions qdp_scalarsite_generic_blas_g5_wrapper.h:210-227, 251-269 -/
def e63 : Entry := {
  op := .assign
  rhs := (.bin .add (.bin .mul .scal .vec) (.un .projPlus .vec))
  cplx := false
  ordered := ⟨axpyz_g5ProjPlus, [.dest, .sc [.l, .l], .at [.l, .r], .at [.r, .c]]⟩
  unordered := ⟨axpyz_g5ProjPlus, [.dest, .sc [.l, .l], .at [.l, .r], .at [.r, .c]]⟩ }

/-- include/scalarsite_generic/qdp_scalarsite_generic_blas_g5.h:985-1064; user functions qdp_scalarsite_generic_blas_g5_wrapper.h:210-227, 251-269 -/
def e64 : Entry := {
  op := .assign
  rhs := (.bin .add (.bin .mul .scal .vec) (.un .projMinus .vec))
  cplx := false
  ordered := ⟨axpyz_g5ProjMinus, [.dest, .sc [.l, .l], .at [.l, .r], .at [.r, .c]]⟩
  unordered := ⟨axpyz_g5ProjMinus, [.dest, .sc [.l, .l], .at [.l, .r], .at [.r, .c]]⟩ }

/-- include/scalarsite_generic/qdp_scalarsite_generic_blas_g5.h:1070-1150; user functions qdp_scalarsite_generic_blas_g5_wrapper.h:210-227, 251-269 -/
def e65 : Entry := {
  op := .assign
  rhs := (.bin .sub (.bin .mul .scal .vec) (.un .projPlus .vec))
  cplx := false
  ordered := ⟨axmyz_g5ProjPlus, [.dest, .sc [.l, .l], .at [.l, .r], .at [.r, .c]]⟩
  unordered := ⟨axmyz_g5ProjPlus, [.dest, .sc [.l, .l], .at [.l, .r], .at [.r, .c]]⟩ }

/-- include/scalarsite_generic/qdp_scalarsite_generic_blas_g5.h:1155-1232; user functions qdp_scalarsite_generic_blas_g5_wrapper.h:210-227, 251-269 -/
def e66 : Entry := {
  op := .assign
  rhs := (.bin .sub (.bin .mul .scal .vec) (.un .projMinus .vec))
  cplx := false
  ordered := ⟨axmyz_g5ProjMinus, [.dest, .sc [.l, .l], .at [.l, .r], .at [.r, .c]]⟩
  unordered := ⟨axmyz_g5ProjMinus, [.dest, .sc [.l, .l], .at [.l, .r], .at [.r, .c]]⟩ }

/-- include/scalarsite_generic/qdp_scalarsite_generic_blas_g5.h:1237-1298; user functions qdp_scalarsite_generic_blas_g5_wrapper.h:288-303, 325-341 -/
def e67 : Entry := {
  op := .assign
  rhs := (.bin .mul .scal (.un .projPlus .vec))
  cplx := false
  ordered := ⟨scal_g5ProjPlus, [.dest, .sc [.l], .at [.r, .c]]⟩
  unordered := ⟨scal_g5ProjPlus, [.dest, .sc [.l], .at [.r, .c]]⟩ }

/-- include/scalarsite_generic/qdp_scalarsite_generic_blas_g5.h:1303-1363; user functions qdp_scalarsite_generic_blas_g5_wrapper.h:288-303, 325-341 -/
def e68 : Entry := {
  op := .assign
  rhs := (.bin .mul .scal (.un .projMinus .vec))
  cplx := false
  ordered := ⟨scal_g5ProjMinus, [.dest, .sc [.l], .at [.r, .c]]⟩
  unordered := ⟨scal_g5ProjMinus, [.dest, .sc [.l], .at [.r, .c]]⟩ }

/-- include/scalarsite_generic/qdp_scalarsite_generic_blas_g5.h:1368-1462; user functions qdp_scalarsite_generic_blas_g5_wrapper.h:363-381, 407-426 -/
def e69 : Entry := {
  op := .assign
  rhs := (.bin .add (.bin .mul .scal .vec) (.bin .mul .scal (.un .projPlus .vec)))
  cplx := false
  ordered := ⟨axpbyz_g5ProjPlus, [.dest, .sc [.l, .l], .at [.l, .r], .sc [.r, .l], .at [.r, .r, .c]]⟩
  unordered := ⟨axpbyz_g5ProjPlus, [.dest, .sc [.l, .l], .at [.l, .r], .sc [.r, .l], .at [.r, .r, .c]]⟩ }

/-- include/scalarsite_generic/qdp_scalarsite_generic_blas_g5.h:1467-1559; user functions qdp_scalarsite_generic_blas_g5_wrapper.h:363-381, 407-426 -/
def e70 : Entry := {
  op := .assign
  rhs := (.bin .add (.bin .mul .scal .vec) (.bin .mul .scal (.un .projMinus .vec)))
  cplx := false
  ordered := ⟨axpbyz_g5ProjMinus, [.dest, .sc [.l, .l], .at [.l, .r], .sc [.r, .l], .at [.r, .r, .c]]⟩
  unordered := ⟨axpbyz_g5ProjMinus, [.dest, .sc [.l, .l], .at [.l, .r], .sc [.r, .l], .at [.r, .r, .c]]⟩ }

/-- include/scalarsite_generic/qdp_scalarsite_generic_blas_g5.h:1564-1655; user functions qdp_scalarsite_generic_blas_g5_wrapper.h:363-381, 407-426 -/
def e71 : Entry := {
  op := .assign
  rhs := (.bin .sub (.bin .mul .scal .vec) (.bin .mul .scal (.un .projPlus .vec)))
  cplx := false
  ordered := ⟨axmbyz_g5ProjPlus, [.dest, .sc [.l, .l], .at [.l, .r], .sc [.r, .l], .at [.r, .r, .c]]⟩
  unordered := ⟨axmbyz_g5ProjPlus, [.dest, .sc [.l, .l], .at [.l, .r], .sc [.r, .l], .at [.r, .r, .c]]⟩ }

/-- include/scalarsite_generic/qdp_scalarsite_generic_blas_g5.h:1660-1750; user functions qdp_scalarsite_generic_blas_g5_wrapper.h:363-381, 407-426 -/
def e72 : Entry := {
  op := .assign
  rhs := (.bin .sub (.bin .mul .scal .vec) (.bin .mul .scal (.un .projMinus .vec)))
  cplx := false
  ordered := ⟨axmbyz_g5ProjMinus, [.dest, .sc [.l, .l], .at [.l, .r], .sc [.r, .l], .at [.r, .r, .c]]⟩
  unordered := ⟨axmbyz_g5ProjMinus, [.dest, .sc [.l, .l], .at [.l, .r], .sc [.r, .l], .at [.r, .r, .c]]⟩ }

/-- include/scalarsite_generic/qdp_scalarsite_generic_blas_g5.h:1755-1830; user functions qdp_scalarsite_generic_blas_g5_wrapper.h:445-459, 478-493 -/
def e73 : Entry := {
  op := .assign
  rhs := (.bin .mul .scal (.bin .gmul (.gamma 15) .vec))
  cplx := false
  ordered := ⟨scal_g5, [.dest, .sc [.l], .at [.r, .r]]⟩
  unordered := ⟨scal_g5, [.dest, .sc [.l], .at [.r, .r]]⟩ }

/-- include/scalarsite_generic/qdp_scalarsite_generic_blas_g5.h:1837-1926; user functions qdp_scalarsite_generic_blas_g5_wrapper.h:514-531, 556-574 -/
def e74 : Entry := {
  op := .assign
  rhs := (.bin .sub .vec (.bin .mul .scal (.bin .gmul (.gamma 15) .vec)))
  cplx := false
  ordered := ⟨xmayz_g5, [.dest, .sc [.r, .l], .at [.l], .at [.r, .r, .r]]⟩
  unordered := ⟨xmayz_g5, [.dest, .sc [.r, .l], .at [.l], .at [.r, .r, .r]]⟩ }

/-- include/scalarsite_generic/qdp_scalarsite_generic_blas_g5.h:1933-2033; user functions qdp_scalarsite_generic_blas_g5_wrapper.h:595-613, 638-657 -/
def e75 : Entry := {
  op := .assign
  rhs := (.bin .add (.bin .mul .scal .vec) (.bin .mul .scal (.bin .gmul (.gamma 15) .vec)))
  cplx := false
  ordered := ⟨axpbyz_g5, [.dest, .sc [.l, .l], .at [.l, .r], .sc [.r, .l], .at [.r, .r, .r]]⟩
  unordered := ⟨axpbyz_g5, [.dest, .sc [.l, .l], .at [.l, .r], .sc [.r, .l], .at [.r, .r, .r]]⟩ }

/-- include/scalarsite_generic/qdp_scalarsite_generic_blas_g5.h:2039-2136; user functions qdp_scalarsite_generic_blas_g5_wrapper.h:595-613, 638-657 -/
def e76 : Entry := {
  op := .assign
  rhs := (.bin .gmul (.gamma 15) (.bin .sub (.bin .mul .scal .vec) (.bin .mul .scal .vec)))
  cplx := false
  ordered := ⟨g5_axmbyz, [.dest, .sc [.r, .l, .l], .at [.r, .l, .r], .sc [.r, .r, .l], .at [.r, .r, .r]]⟩
  unordered := ⟨g5_axmbyz, [.dest, .sc [.r, .l, .l], .at [.r, .l, .r], .sc [.r, .r, .l], .at [.r, .r, .r]]⟩ }

/-- include/scalarsite_generic/qdp_scalarsite_generic_blas_g5.h:2144-2256; user functions qdp_scalarsite_generic_blas_g5_wrapper.h:595-613, 638-657 -/
def e77 : Entry := {
  op := .assign
  rhs := (.bin .add (.bin .mul .scal .vec) (.bin .mul .scal (.bin .gmul (.gamma 15) (.un .timesI .vec))))
  cplx := false
  ordered := ⟨axpbyz_ig5, [.dest, .sc [.l, .l], .at [.l, .r], .sc [.r, .l], .at [.r, .r, .r, .c]]⟩
  unordered := ⟨axpbyz_ig5, [.dest, .sc [.l, .l], .at [.l, .r], .sc [.r, .l], .at [.r, .r, .r, .c]]⟩ }

/-- include/scalarsite_generic/qdp_scalarsite_generic_blas_g5.h:2262-2374; user functions qdp_scalarsite_generic_blas_g5_wrapper.h:595-613, 638-657 -/
def e78 : Entry := {
  op := .assign
  rhs := (.bin .sub (.bin .mul .scal .vec) (.bin .mul .scal (.bin .gmul (.gamma 15) (.un .timesI .vec))))
  cplx := false
  ordered := ⟨axmbyz_ig5, [.dest, .sc [.l, .l], .at [.l, .r], .sc [.r, .l], .at [.r, .r, .r, .c]]⟩
  unordered := ⟨axmbyz_ig5, [.dest, .sc [.l, .l], .at [.l, .r], .sc [.r, .l], .at [.r, .r, .r, .c]]⟩ }

/-- include/scalarsite_generic/qdp_scalarsite_generic_blas_g5.h:2380-2481; user functions qdp_scalarsite_generic_blas_g5_wrapper.h:677-694, 718-736 -/
def e79 : Entry := {
  op := .assign
  rhs := (.bin .add .vec (.bin .mul .scal (.bin .gmul (.gamma 15) (.un .timesI .vec))))
  cplx := false
  ordered := ⟨xpayz_ig5, [.dest, .sc [.r, .l], .at [.l], .at [.r, .r, .r, .c]]⟩
  unordered := ⟨xpayz_ig5, [.dest, .sc [.r, .l], .at [.l], .at [.r, .r, .r, .c]]⟩ }

/-- include/scalarsite_generic/qdp_scalarsite_generic_blas_g5.h:2487-2590; user functions qdp_scalarsite_generic_blas_g5_wrapper.h:677-694, 718-736 -/
def e80 : Entry := {
  op := .assign
  rhs := (.bin .sub .vec (.bin .mul .scal (.bin .gmul (.gamma 15) (.un .timesI .vec))))
  cplx := false
  ordered := ⟨xmayz_ig5, [.dest, .sc [.r, .l], .at [.l], .at [.r, .r, .r, .c]]⟩
  unordered := ⟨xmayz_ig5, [.dest, .sc [.r, .l], .at [.l], .at [.r, .r, .r, .c]]⟩ }

/-- include/scalarsite_generic/qdp_scalarsite_generic_blas_g5.h:2598-2697; user functions qdp_scalarsite_generic_blas_g5_wrapper.h:677-694, 760-776 -/
def e81 : Entry := {
  op := .addAssign
  rhs := (.bin .mul .scal (.bin .gmul (.gamma 15) (.un .timesI .vec)))
  cplx := false
  ordered := ⟨xpayz_ig5, [.dest, .sc [.l], .dest, .at [.r, .r, .c]]⟩
  unordered := ⟨xpayz_ig5, [.dest, .sc [.l], .dest, .at [.r, .r, .c]]⟩ }

/-- include/scalarsite_generic/qdp_scalarsite_generic_blas_g5.h:2704-2804; user functions qdp_scalarsite_generic_blas_g5_wrapper.h:677-694, 760-776 -/
def e82 : Entry := {
  op := .subtractAssign
  rhs := (.bin .mul .scal (.bin .gmul (.gamma 15) (.un .timesI .vec)))
  cplx := false
  ordered := ⟨xmayz_ig5, [.dest, .sc [.l], .dest, .at [.r, .r, .c]]⟩
  unordered := ⟨xmayz_ig5, [.dest, .sc [.l], .dest, .at [.r, .r, .c]]⟩ }

def entries : List Entry := [e00, e01, e02, e03, e04, e05, e06, e07, e08, e09, e10, e11, e12, e13, e14, e15, e16, e17, e18, e19, e20, e21, e22, e23, e24, e25, e26, e27, e28, e29, e30, e31, e32, e33, e34, e35, e36, e37, e38, e39, e40, e41, e42, e43, e44, e45, e46, e47, e48, e49, e50, e51, e52, e53, e54, e55, e56, e57, e58, e59, e60, e61, e62, e63, e64, e65, e66, e67, e68, e69, e70, e71, e72, e73, e74, e75, e76, e77, e78, e79, e80, e81, e82]

end Verif.Blas.Tables
