import Verif.VecSse
/-
Written by tools/gen_ssevec.py from include/scalarvecsite_sse/ssevec_mult_nn.h: the instructions of the macro
`_inline_ssevec_mult_su3_nn`, one list for each `__asm__`.  Operands of an instruction come first source, then destination; the operands of the
statement are `%0`, `%1`, ….
-/
namespace Verif.VecSse

/-- include/scalarvecsite_sse/ssevec_mult_nn.h:9-29 -/
def asm0 : Asm where
  ins := [.load 0 0, .mov 0 1, .mulm 2 1, .mov 0 2, .mulm 3 2, .mov 0 3, .mulm 4 3, .mov 0 4,
    .mulm 5 4, .mov 0 5, .mulm 6 5, .mulm 1 0]
  ops := [⟨.bb, 0, true⟩, ⟨.aa, 0, false⟩, ⟨.aa, 4, false⟩, ⟨.aa, 24, false⟩, ⟨.aa, 28, false⟩, ⟨.aa, 48, false⟩, ⟨.aa, 52, false⟩]

/-- include/scalarvecsite_sse/ssevec_mult_nn.h:30-56 -/
def asm1 : Asm where
  ins := [.load 0 6, .mov 6 7, .mulm 2 7, .sub 7 0, .mov 6 7, .mulm 1 7, .add 7 1, .mov 6 7,
    .mulm 4 7, .sub 7 2, .mov 6 7, .mulm 3 7, .add 7 3, .mov 6 7, .mulm 6 7, .sub 7 4,
    .mulm 5 6, .add 6 5]
  ops := [⟨.bb, 4, true⟩, ⟨.aa, 0, false⟩, ⟨.aa, 4, false⟩, ⟨.aa, 24, false⟩, ⟨.aa, 28, false⟩, ⟨.aa, 48, false⟩, ⟨.aa, 52, false⟩]

/-- include/scalarvecsite_sse/ssevec_mult_nn.h:57-83 -/
def asm2 : Asm where
  ins := [.load 0 6, .mov 6 7, .mulm 1 7, .add 7 0, .mov 6 7, .mulm 2 7, .add 7 1, .mov 6 7,
    .mulm 3 7, .add 7 2, .mov 6 7, .mulm 4 7, .add 7 3, .mov 6 7, .mulm 5 7, .add 7 4,
    .mulm 6 6, .add 6 5]
  ops := [⟨.bb, 24, true⟩, ⟨.aa, 8, false⟩, ⟨.aa, 12, false⟩, ⟨.aa, 32, false⟩, ⟨.aa, 36, false⟩, ⟨.aa, 56, false⟩, ⟨.aa, 60, false⟩]

/-- include/scalarvecsite_sse/ssevec_mult_nn.h:84-110 -/
def asm3 : Asm where
  ins := [.load 0 6, .mov 6 7, .mulm 2 7, .sub 7 0, .mov 6 7, .mulm 1 7, .add 7 1, .mov 6 7,
    .mulm 4 7, .sub 7 2, .mov 6 7, .mulm 3 7, .add 7 3, .mov 6 7, .mulm 6 7, .sub 7 4,
    .mulm 5 6, .add 6 5]
  ops := [⟨.bb, 28, true⟩, ⟨.aa, 8, false⟩, ⟨.aa, 12, false⟩, ⟨.aa, 32, false⟩, ⟨.aa, 36, false⟩, ⟨.aa, 56, false⟩, ⟨.aa, 60, false⟩]

/-- include/scalarvecsite_sse/ssevec_mult_nn.h:111-137 -/
def asm4 : Asm where
  ins := [.load 0 6, .mov 6 7, .mulm 1 7, .add 7 0, .mov 6 7, .mulm 2 7, .add 7 1, .mov 6 7,
    .mulm 3 7, .add 7 2, .mov 6 7, .mulm 4 7, .add 7 3, .mov 6 7, .mulm 5 7, .add 7 4,
    .mulm 6 6, .add 6 5]
  ops := [⟨.bb, 48, true⟩, ⟨.aa, 16, false⟩, ⟨.aa, 20, false⟩, ⟨.aa, 40, false⟩, ⟨.aa, 44, false⟩, ⟨.aa, 64, false⟩, ⟨.aa, 68, false⟩]

/-- include/scalarvecsite_sse/ssevec_mult_nn.h:138-164 -/
def asm5 : Asm where
  ins := [.load 0 6, .mov 6 7, .mulm 2 7, .sub 7 0, .mov 6 7, .mulm 1 7, .add 7 1, .mov 6 7,
    .mulm 4 7, .sub 7 2, .mov 6 7, .mulm 3 7, .add 7 3, .mov 6 7, .mulm 6 7, .sub 7 4,
    .mulm 5 6, .add 6 5]
  ops := [⟨.bb, 52, true⟩, ⟨.aa, 16, false⟩, ⟨.aa, 20, false⟩, ⟨.aa, 40, false⟩, ⟨.aa, 44, false⟩, ⟨.aa, 64, false⟩, ⟨.aa, 68, false⟩]

/-- include/scalarvecsite_sse/ssevec_mult_nn.h:165-177 -/
def asm6 : Asm where
  ins := [.store 0 0, .store 1 1, .store 2 2, .store 3 3, .store 4 4, .store 5 5]
  ops := [⟨.cc, 0, true⟩, ⟨.cc, 4, true⟩, ⟨.cc, 24, true⟩, ⟨.cc, 28, true⟩, ⟨.cc, 48, true⟩, ⟨.cc, 52, true⟩]

/-- the macro, include/scalarvecsite_sse/ssevec_mult_nn.h:7-178 -/
def mulMacro : List Asm := [asm0, asm1, asm2, asm3, asm4, asm5, asm6]

end Verif.VecSse
