import Verif.SseSpin
/- Generated by tools/gen_sse_spin.py: instructions of the functions before the loop, in the loop, behind it. -/
namespace Verif.SseSpin

/-- `inlineSpinProjDir0Plus`, include/scalarsite_sse/sse_spin_proj_inlines.h:26-187 -/
def inlineSpinProjDir0Plus : Fn :=
  ⟨[.load 0 false 0, .load 1 false 4, .load 2 false 8, .load 3 false 12, .load 4 false 16, .load 5 false 20, .setf 7 0 true, .setf 7 1 false, .setf 7 2 true, .setf 7 3 false],
   [.incS 24, .mov 6 4, .shuf 6 6 5 0x1B, .mul 6 6 7, .add 0 0 6, .store 0 0, .mov 6 5, .shuf 6 6 3 0x1B, .mul 6 6 7, .add 1 1 6, .store 4 1, .mov 6 3, .shuf 6 6 4 0x1B, .mul 6 6 7, .add 2 2 6, .store 8 2, .incD 12, .load 0 false 0, .load 1 false 4, .load 2 false 8, .load 3 false 12, .load 4 false 16, .load 5 false 20],
   [.mov 6 4, .shuf 6 6 5 0x1B, .mul 6 6 7, .add 0 0 6, .store 0 0, .mov 6 5, .shuf 6 6 3 0x1B, .mul 6 6 7, .add 1 1 6, .store 4 1, .mov 6 3, .shuf 6 6 4 0x1B, .mul 6 6 7, .add 2 2 6, .store 8 2]⟩

/-- `inlineSpinProjDir0Minus`, include/scalarsite_sse/sse_spin_proj_inlines.h:201-362 -/
def inlineSpinProjDir0Minus : Fn :=
  ⟨[.setf 7 0 true, .setf 7 1 false, .setf 7 2 true, .setf 7 3 false, .load 0 false 0, .load 1 false 4, .load 2 false 8, .load 3 false 12, .load 4 false 16, .load 5 false 20],
   [.incS 24, .mov 6 4, .shuf 6 6 5 0x1B, .mul 6 6 7, .sub 0 0 6, .store 0 0, .mov 6 5, .shuf 6 6 3 0x1B, .mul 6 6 7, .sub 1 1 6, .store 4 1, .mov 6 3, .shuf 6 6 4 0x1B, .mul 6 6 7, .sub 2 2 6, .store 8 2, .incD 12, .load 0 false 0, .load 1 false 4, .load 2 false 8, .load 3 false 12, .load 4 false 16, .load 5 false 20],
   [.mov 6 4, .shuf 6 6 5 0x1B, .mul 6 6 7, .sub 0 0 6, .store 0 0, .mov 6 5, .shuf 6 6 3 0x1B, .mul 6 6 7, .sub 1 1 6, .store 4 1, .mov 6 3, .shuf 6 6 4 0x1B, .mul 6 6 7, .sub 2 2 6, .store 8 2]⟩

/-- `inlineSpinProjDir1Plus`, include/scalarsite_sse/sse_spin_proj_inlines.h:379-533 -/
def inlineSpinProjDir1Plus : Fn :=
  ⟨[.setf 7 0 true, .setf 7 1 true, .setf 7 2 false, .setf 7 3 false, .load 0 false 0, .load 1 false 4, .load 2 false 8, .load 3 false 12, .load 4 false 16, .load 5 false 20],
   [.incS 24, .mov 6 4, .shuf 6 6 5 0x4E, .sub 0 0 6, .store 0 0, .mov 6 5, .shuf 6 6 3 0x4E, .mul 6 6 7, .add 1 1 6, .store 4 1, .mov 6 3, .shuf 6 6 4 0x4E, .add 2 2 6, .store 8 2, .incD 12, .load 0 false 0, .load 1 false 4, .load 2 false 8, .load 3 false 12, .load 4 false 16, .load 5 false 20],
   [.mov 6 4, .shuf 6 6 5 0x4E, .sub 0 0 6, .store 0 0, .mov 6 5, .shuf 6 6 3 0x4E, .mul 6 6 7, .add 1 1 6, .store 4 1, .mov 6 3, .shuf 6 6 4 0x4E, .add 2 2 6, .store 8 2]⟩

/-- `inlineSpinProjDir1Minus`, include/scalarsite_sse/sse_spin_proj_inlines.h:547-701 -/
def inlineSpinProjDir1Minus : Fn :=
  ⟨[.setf 7 0 true, .setf 7 1 true, .setf 7 2 false, .setf 7 3 false, .load 0 false 0, .load 1 false 4, .load 2 false 8, .load 3 false 12, .load 4 false 16, .load 5 false 20],
   [.incS 24, .mov 6 4, .shuf 6 6 5 0x4E, .add 0 0 6, .store 0 0, .mov 6 5, .shuf 6 6 3 0x4E, .mul 6 6 7, .sub 1 1 6, .store 4 1, .mov 6 3, .shuf 6 6 4 0x4E, .sub 2 2 6, .store 8 2, .incD 12, .load 0 false 0, .load 1 false 4, .load 2 false 8, .load 3 false 12, .load 4 false 16, .load 5 false 20],
   [.mov 6 4, .shuf 6 6 5 0x4E, .add 0 0 6, .store 0 0, .mov 6 5, .shuf 6 6 3 0x4E, .mul 6 6 7, .sub 1 1 6, .store 4 1, .mov 6 3, .shuf 6 6 4 0x4E, .sub 2 2 6, .store 8 2]⟩

/-- `inlineSpinProjDir2Plus`, include/scalarsite_sse/sse_spin_proj_inlines.h:717-881 -/
def inlineSpinProjDir2Plus : Fn :=
  ⟨[.setf 7 0 true, .setf 7 1 false, .setf 7 2 true, .setf 7 3 false, .setf 6 0 true, .setf 6 1 false, .setf 6 2 false, .setf 6 3 true, .load 0 false 0, .load 1 false 4, .load 2 false 8, .load 3 false 12, .load 4 false 16, .load 5 false 20],
   [.incS 24, .shuf 3 3 3 0xB1, .mul 3 3 7, .add 0 0 3, .store 0 0, .shuf 4 4 4 0xB1, .mul 4 4 6, .add 1 1 4, .store 4 1, .shuf 5 5 5 0xB1, .mul 5 5 7, .sub 2 2 5, .store 8 2, .incD 12, .load 0 false 0, .load 1 false 4, .load 2 false 8, .load 3 false 12, .load 4 false 16, .load 5 false 20],
   [.shuf 3 3 3 0xB1, .mul 3 3 7, .add 0 0 3, .store 0 0, .shuf 4 4 4 0xB1, .mul 4 4 6, .add 1 1 4, .store 4 1, .shuf 5 5 5 0xB1, .mul 5 5 7, .sub 2 2 5, .store 8 2]⟩

/-- `inlineSpinProjDir2Minus`, include/scalarsite_sse/sse_spin_proj_inlines.h:895-1060 -/
def inlineSpinProjDir2Minus : Fn :=
  ⟨[.setf 7 0 true, .setf 7 1 false, .setf 7 2 true, .setf 7 3 false, .setf 6 0 true, .setf 6 1 false, .setf 6 2 false, .setf 6 3 true, .load 0 false 0, .load 1 false 4, .load 2 false 8, .load 3 false 12, .load 4 false 16, .load 5 false 20],
   [.incS 24, .shuf 3 3 3 0xB1, .mul 3 3 7, .sub 0 0 3, .store 0 0, .shuf 4 4 4 0xB1, .mul 4 4 6, .sub 1 1 4, .store 4 1, .shuf 5 5 5 0xB1, .mul 5 5 7, .add 2 2 5, .store 8 2, .incD 12, .load 0 false 0, .load 1 false 4, .load 2 false 8, .load 3 false 12, .load 4 false 16, .load 5 false 20],
   [.shuf 3 3 3 0xB1, .mul 3 3 7, .sub 0 0 3, .store 0 0, .shuf 4 4 4 0xB1, .mul 4 4 6, .sub 1 1 4, .store 4 1, .shuf 5 5 5 0xB1, .mul 5 5 7, .add 2 2 5, .store 8 2]⟩

/-- `inlineSpinProjDir3Plus`, include/scalarsite_sse/sse_spin_proj_inlines.h:1075-1135 -/
def inlineSpinProjDir3Plus : Fn :=
  ⟨[.load 0 false 0, .load 1 false 4, .load 2 false 8, .load 3 false 12, .load 4 false 16, .load 5 false 20],
   [.incS 24, .add 0 0 3, .add 1 1 4, .add 2 2 5, .store 0 0, .store 4 1, .store 8 2, .incD 12, .load 0 false 0, .load 1 false 4, .load 2 false 8, .load 3 false 12, .load 4 false 16, .load 5 false 20],
   [.add 0 0 3, .add 1 1 4, .add 2 2 5, .store 0 0, .store 4 1, .store 8 2]⟩

/-- `inlineSpinProjDir3Minus`, include/scalarsite_sse/sse_spin_proj_inlines.h:1149-1210 -/
def inlineSpinProjDir3Minus : Fn :=
  ⟨[.load 0 false 0, .load 1 false 4, .load 2 false 8, .load 3 false 12, .load 4 false 16, .load 5 false 20],
   [.incS 24, .sub 0 0 3, .sub 1 1 4, .sub 2 2 5, .store 0 0, .store 4 1, .store 8 2, .incD 12, .load 0 false 0, .load 1 false 4, .load 2 false 8, .load 3 false 12, .load 4 false 16, .load 5 false 20],
   [.sub 0 0 3, .sub 1 1 4, .sub 2 2 5, .store 0 0, .store 4 1, .store 8 2]⟩

/-- the eight `inlineSpinProjDir` of include/scalarsite_sse/sse_spin_proj_inlines.h, in the order 0Plus, 0Minus, 1Plus, ... -/
def projF : Fin 8 → Fn := ![inlineSpinProjDir0Plus, inlineSpinProjDir0Minus, inlineSpinProjDir1Plus, inlineSpinProjDir1Minus, inlineSpinProjDir2Plus, inlineSpinProjDir2Minus, inlineSpinProjDir3Plus, inlineSpinProjDir3Minus]

/-- `inlineSpinReconDir0Plus`, include/scalarsite_sse/sse_spin_recon_inlines.h:25-209 -/
def inlineSpinReconDir0Plus : Fn :=
  ⟨[.setf 6 0 false, .setf 6 1 true, .setf 6 2 false, .setf 6 3 true, .load 0 false 0, .load 1 false 4, .load 2 false 8],
   [.incS 12, .store 0 0, .store 4 1, .store 8 2, .mov 3 1, .shuf 3 3 2 0x1B, .mul 3 3 6, .mov 4 2, .shuf 4 4 0 0x1B, .mul 4 4 6, .mov 5 0, .shuf 5 5 1 0x1B, .mul 5 5 6, .store 12 3, .store 16 4, .store 20 5, .incD 24, .load 0 false 0, .load 1 false 4, .load 2 false 8],
   [.store 0 0, .store 4 1, .store 8 2, .mov 3 1, .shuf 3 3 2 0x1B, .mul 3 3 6, .mov 4 2, .shuf 4 4 0 0x1B, .mul 4 4 6, .mov 5 0, .shuf 5 5 1 0x1B, .mul 5 5 6, .store 12 3, .store 16 4, .store 20 5]⟩

/-- `inlineSpinReconDir0Minus`, include/scalarsite_sse/sse_spin_recon_inlines.h:224-406 -/
def inlineSpinReconDir0Minus : Fn :=
  ⟨[.setf 6 0 true, .setf 6 1 false, .setf 6 2 true, .setf 6 3 false, .load 0 false 0, .load 1 false 4, .load 2 false 8],
   [.incS 12, .store 0 0, .store 4 1, .store 8 2, .mov 3 1, .shuf 3 3 2 0x1B, .mul 3 3 6, .mov 4 2, .shuf 4 4 0 0x1B, .mul 4 4 6, .mov 5 0, .shuf 5 5 1 0x1B, .mul 5 5 6, .store 12 3, .store 16 4, .store 20 5, .incD 24, .load 0 false 0, .load 1 false 4, .load 2 false 8],
   [.store 0 0, .store 4 1, .store 8 2, .mov 3 1, .shuf 3 3 2 0x1B, .mul 3 3 6, .mov 4 2, .shuf 4 4 0 0x1B, .mul 4 4 6, .mov 5 0, .shuf 5 5 1 0x1B, .mul 5 5 6, .store 12 3, .store 16 4, .store 20 5]⟩

/-- `inlineSpinReconDir1Plus`, include/scalarsite_sse/sse_spin_recon_inlines.h:421-604 -/
def inlineSpinReconDir1Plus : Fn :=
  ⟨[.setf 6 0 false, .setf 6 1 false, .setf 6 2 true, .setf 6 3 true, .setf 7 0 true, .setf 7 1 true, .setf 7 2 true, .setf 7 3 true, .load 0 false 0, .load 1 false 4, .load 2 false 8],
   [.incS 12, .store 0 0, .store 4 1, .store 8 2, .mov 3 1, .shuf 3 3 2 0x4E, .mov 4 2, .shuf 4 4 0 0x4E, .mul 4 4 6, .mov 5 0, .shuf 5 5 1 0x4E, .mul 5 5 7, .store 12 3, .store 16 4, .store 20 5, .incD 24, .load 0 false 0, .load 1 false 4, .load 2 false 8],
   [.store 0 0, .store 4 1, .store 8 2, .mov 3 1, .shuf 3 3 2 0x4E, .mov 4 2, .shuf 4 4 0 0x4E, .mul 4 4 6, .mov 5 0, .shuf 5 5 1 0x4E, .mul 5 5 7, .store 12 3, .store 16 4, .store 20 5]⟩

/-- `inlineSpinReconDir1Minus`, include/scalarsite_sse/sse_spin_recon_inlines.h:619-792 -/
def inlineSpinReconDir1Minus : Fn :=
  ⟨[.setf 6 0 true, .setf 6 1 true, .setf 6 2 false, .setf 6 3 false, .setf 7 0 true, .setf 7 1 true, .setf 7 2 true, .setf 7 3 true, .load 0 false 0, .load 1 false 4, .load 2 false 8],
   [.incS 12, .store 0 0, .store 4 1, .store 8 2, .mov 3 1, .shuf 3 3 2 0x4E, .mul 3 3 7, .mov 4 2, .shuf 4 4 0 0x4E, .mul 4 4 6, .mov 5 0, .shuf 5 5 1 0x4E, .store 12 3, .store 16 4, .store 20 5, .incD 24, .load 0 false 0, .load 1 false 4, .load 2 false 8],
   [.store 0 0, .store 4 1, .store 8 2, .mov 3 1, .shuf 3 3 2 0x4E, .mul 3 3 7, .mov 4 2, .shuf 4 4 0 0x4E, .mul 4 4 6, .mov 5 0, .shuf 5 5 1 0x4E, .store 12 3, .store 16 4, .store 20 5]⟩

/-- `inlineSpinReconDir2Plus`, include/scalarsite_sse/sse_spin_recon_inlines.h:808-995 -/
def inlineSpinReconDir2Plus : Fn :=
  ⟨[.setf 5 0 false, .setf 5 1 true, .setf 5 2 false, .setf 5 3 true, .setf 6 0 false, .setf 6 1 true, .setf 6 2 true, .setf 6 3 false, .setf 7 0 true, .setf 7 1 false, .setf 7 2 true, .setf 7 3 false, .load 0 false 0, .load 1 false 4, .load 2 false 8],
   [.incS 12, .store 0 0, .store 4 1, .store 8 2, .shuf 0 0 0 0xB1, .mul 0 0 5, .shuf 1 1 1 0xB1, .mul 1 1 6, .shuf 2 2 2 0xB1, .mul 2 2 7, .store 12 0, .store 16 1, .store 20 2, .incD 24, .load 0 false 0, .load 1 false 4, .load 2 false 8],
   [.store 0 0, .store 4 1, .store 8 2, .shuf 0 0 0 0xB1, .mul 0 0 5, .shuf 1 1 1 0xB1, .mul 1 1 6, .shuf 2 2 2 0xB1, .mul 2 2 7, .store 12 0, .store 16 1, .store 20 2]⟩

/-- `inlineSpinReconDir2Minus`, include/scalarsite_sse/sse_spin_recon_inlines.h:1010-1186 -/
def inlineSpinReconDir2Minus : Fn :=
  ⟨[.setf 5 0 true, .setf 5 1 false, .setf 5 2 true, .setf 5 3 false, .setf 6 0 true, .setf 6 1 false, .setf 6 2 false, .setf 6 3 true, .setf 7 0 false, .setf 7 1 true, .setf 7 2 false, .setf 7 3 true, .load 0 false 0, .load 1 false 4, .load 2 false 8],
   [.incS 12, .store 0 0, .store 4 1, .store 8 2, .shuf 0 0 0 0xB1, .mul 0 0 5, .shuf 1 1 1 0xB1, .mul 1 1 6, .shuf 2 2 2 0xB1, .mul 2 2 7, .store 12 0, .store 16 1, .store 20 2, .incD 24, .load 0 false 0, .load 1 false 4, .load 2 false 8],
   [.store 0 0, .store 4 1, .store 8 2, .shuf 0 0 0 0xB1, .mul 0 0 5, .shuf 1 1 1 0xB1, .mul 1 1 6, .shuf 2 2 2 0xB1, .mul 2 2 7, .store 12 0, .store 16 1, .store 20 2]⟩

/-- `inlineSpinReconDir3Plus`, include/scalarsite_sse/sse_spin_recon_inlines.h:1202-1294 -/
def inlineSpinReconDir3Plus : Fn :=
  ⟨[.load 0 false 0, .load 1 false 4, .load 2 false 8],
   [.incS 12, .store 0 0, .store 4 1, .store 8 2, .store 12 0, .store 16 1, .store 20 2, .incD 24, .load 0 false 0, .load 1 false 4, .load 2 false 8],
   [.store 0 0, .store 4 1, .store 8 2, .store 12 0, .store 16 1, .store 20 2]⟩

/-- `inlineSpinReconDir3Minus`, include/scalarsite_sse/sse_spin_recon_inlines.h:1309-1410 -/
def inlineSpinReconDir3Minus : Fn :=
  ⟨[.setf 7 0 true, .setf 7 1 true, .setf 7 2 true, .setf 7 3 true, .load 0 false 0, .load 1 false 4, .load 2 false 8],
   [.incS 12, .store 0 0, .store 4 1, .store 8 2, .mul 0 0 7, .mul 1 1 7, .mul 2 2 7, .store 12 0, .store 16 1, .store 20 2, .incD 24, .load 0 false 0, .load 1 false 4, .load 2 false 8],
   [.store 0 0, .store 4 1, .store 8 2, .mul 0 0 7, .mul 1 1 7, .mul 2 2 7, .store 12 0, .store 16 1, .store 20 2]⟩

/-- the eight `inlineSpinReconDir` of include/scalarsite_sse/sse_spin_recon_inlines.h, in the order 0Plus, 0Minus, 1Plus, ... -/
def reconF : Fin 8 → Fn := ![inlineSpinReconDir0Plus, inlineSpinReconDir0Minus, inlineSpinReconDir1Plus, inlineSpinReconDir1Minus, inlineSpinReconDir2Plus, inlineSpinReconDir2Minus, inlineSpinReconDir3Plus, inlineSpinReconDir3Minus]

/-- `inlineAddSpinReconDir0Plus`, include/scalarsite_sse/sse_spin_recon_inlines.h:1427-1630 -/
def inlineAddSpinReconDir0Plus : Fn :=
  ⟨[.setf 6 0 false, .setf 6 1 true, .setf 6 2 false, .setf 6 3 true, .load 0 false 0, .load 1 false 4, .load 2 false 8, .load 3 true 0, .load 4 true 4, .load 5 true 8, .add 3 3 0, .add 4 4 1, .add 5 5 2, .store 0 3, .store 4 4, .store 8 5],
   [.incS 12, .load 4 true 12, .load 5 true 16, .mov 3 1, .shuf 3 3 2 0x1B, .mul 3 3 6, .add 4 3 4, .load 3 true 20, .store 12 4, .mov 4 2, .shuf 4 4 0 0x1B, .mul 4 4 6, .add 5 5 4, .store 16 5, .mov 5 0, .shuf 5 5 1 0x1B, .mul 5 5 6, .add 3 3 5, .store 20 3, .incD 24, .load 0 false 0, .load 1 false 4, .load 2 false 8, .load 3 true 0, .load 4 true 4, .load 5 true 8, .add 3 3 0, .add 4 4 1, .add 5 5 2, .store 0 3, .store 4 4, .store 8 5],
   [.load 4 true 12, .load 5 true 16, .mov 3 1, .shuf 3 3 2 0x1B, .mul 3 3 6, .add 4 3 4, .load 3 true 20, .store 12 4, .mov 4 2, .shuf 4 4 0 0x1B, .mul 4 4 6, .add 5 5 4, .store 16 5, .mov 5 0, .shuf 5 5 1 0x1B, .mul 5 5 6, .add 3 3 5, .store 20 3]⟩

/-- `inlineAddSpinReconDir0Minus`, include/scalarsite_sse/sse_spin_recon_inlines.h:1645-1850 -/
def inlineAddSpinReconDir0Minus : Fn :=
  ⟨[.setf 6 0 true, .setf 6 1 false, .setf 6 2 true, .setf 6 3 false, .load 0 false 0, .load 1 false 4, .load 2 false 8, .load 3 true 0, .load 4 true 4, .load 5 true 8, .add 3 3 0, .add 4 4 1, .add 5 5 2, .store 0 3, .store 4 4, .store 8 5],
   [.incS 12, .load 4 true 12, .load 5 true 16, .mov 3 1, .shuf 3 3 2 0x1B, .mul 3 3 6, .add 4 3 4, .load 3 true 20, .store 12 4, .mov 4 2, .shuf 4 4 0 0x1B, .mul 4 4 6, .add 5 5 4, .store 16 5, .mov 5 0, .shuf 5 5 1 0x1B, .mul 5 5 6, .add 3 3 5, .store 20 3, .incD 24, .load 0 false 0, .load 1 false 4, .load 2 false 8, .load 3 true 0, .load 4 true 4, .load 5 true 8, .add 3 3 0, .add 4 4 1, .add 5 5 2, .store 0 3, .store 4 4, .store 8 5],
   [.load 4 true 12, .load 5 true 16, .mov 3 1, .shuf 3 3 2 0x1B, .mul 3 3 6, .add 4 3 4, .load 3 true 20, .store 12 4, .mov 4 2, .shuf 4 4 0 0x1B, .mul 4 4 6, .add 5 5 4, .store 16 5, .mov 5 0, .shuf 5 5 1 0x1B, .mul 5 5 6, .add 3 3 5, .store 20 3]⟩

/-- `inlineAddSpinReconDir1Plus`, include/scalarsite_sse/sse_spin_recon_inlines.h:1865-2093 -/
def inlineAddSpinReconDir1Plus : Fn :=
  ⟨[.setf 6 0 false, .setf 6 1 false, .setf 6 2 true, .setf 6 3 true, .load 0 false 0, .load 1 false 4, .load 2 false 8, .load 3 true 0, .load 4 true 4, .load 5 true 8, .add 3 3 0, .add 4 4 1, .add 5 5 2, .store 0 3, .store 4 4, .store 8 5],
   [.incS 12, .load 4 true 12, .load 5 true 16, .mov 3 1, .shuf 3 3 2 0x4E, .add 4 4 3, .store 12 4, .load 3 true 20, .mov 4 2, .shuf 4 4 0 0x4E, .mul 4 4 6, .add 5 5 4, .store 16 5, .mov 5 0, .shuf 5 5 1 0x4E, .sub 3 3 5, .store 20 3, .incD 24, .load 0 false 0, .load 1 false 4, .load 2 false 8, .load 3 true 0, .load 4 true 4, .load 5 true 8, .add 3 3 0, .add 4 4 1, .add 5 5 2, .store 0 3, .store 4 4, .store 8 5],
   [.load 4 true 12, .load 5 true 16, .mov 3 1, .shuf 3 3 2 0x4E, .add 4 4 3, .store 12 4, .load 3 true 20, .mov 4 2, .shuf 4 4 0 0x4E, .mul 4 4 6, .add 5 5 4, .store 16 5, .mov 5 0, .shuf 5 5 1 0x4E, .sub 3 3 5, .store 20 3]⟩

/-- `inlineAddSpinReconDir1Minus`, include/scalarsite_sse/sse_spin_recon_inlines.h:2108-2297 -/
def inlineAddSpinReconDir1Minus : Fn :=
  ⟨[.setf 6 0 true, .setf 6 1 true, .setf 6 2 false, .setf 6 3 false, .load 0 false 0, .load 1 false 4, .load 2 false 8, .load 3 true 0, .load 4 true 4, .load 5 true 8, .add 3 3 0, .add 4 4 1, .add 5 5 2, .store 0 3, .store 4 4, .store 8 5],
   [.incS 12, .load 4 true 12, .load 5 true 16, .mov 3 1, .shuf 3 3 2 0x4E, .sub 4 4 3, .store 12 4, .load 3 true 20, .mov 4 2, .shuf 4 4 0 0x4E, .mul 4 4 6, .add 5 5 4, .store 16 5, .mov 5 0, .shuf 5 5 1 0x4E, .add 3 3 5, .store 20 3, .incD 24, .load 0 false 0, .load 1 false 4, .load 2 false 8, .load 3 true 0, .load 4 true 4, .load 5 true 8, .add 3 3 0, .add 4 4 1, .add 5 5 2, .store 0 3, .store 4 4, .store 8 5],
   [.load 4 true 12, .load 5 true 16, .mov 3 1, .shuf 3 3 2 0x4E, .sub 4 4 3, .store 12 4, .load 3 true 20, .mov 4 2, .shuf 4 4 0 0x4E, .mul 4 4 6, .add 5 5 4, .store 16 5, .mov 5 0, .shuf 5 5 1 0x4E, .add 3 3 5, .store 20 3]⟩

/-- `inlineAddSpinReconDir2Plus`, include/scalarsite_sse/sse_spin_recon_inlines.h:2313-2498 -/
def inlineAddSpinReconDir2Plus : Fn :=
  ⟨[.setf 6 0 false, .setf 6 1 true, .setf 6 2 false, .setf 6 3 true, .setf 7 0 false, .setf 7 1 true, .setf 7 2 true, .setf 7 3 false, .load 0 false 0, .load 1 false 4, .load 2 false 8, .load 3 true 0, .load 4 true 4, .load 5 true 8, .add 3 3 0, .add 4 4 1, .add 5 5 2, .store 0 3, .store 4 4, .store 8 5],
   [.incS 12, .load 3 true 12, .load 4 true 16, .load 5 true 20, .shuf 0 0 0 0xB1, .mul 0 0 6, .add 3 3 0, .store 12 3, .shuf 1 1 1 0xB1, .mul 1 1 7, .add 4 4 1, .store 16 4, .shuf 2 2 2 0xB1, .mul 2 2 6, .sub 5 5 2, .store 20 5, .incD 24, .load 0 false 0, .load 1 false 4, .load 2 false 8, .load 3 true 0, .load 4 true 4, .load 5 true 8, .add 3 3 0, .add 4 4 1, .add 5 5 2, .store 0 3, .store 4 4, .store 8 5],
   [.load 3 true 12, .load 4 true 16, .load 5 true 20, .shuf 0 0 0 0xB1, .mul 0 0 6, .add 3 3 0, .store 12 3, .shuf 1 1 1 0xB1, .mul 1 1 7, .add 4 4 1, .store 16 4, .shuf 2 2 2 0xB1, .mul 2 2 6, .sub 5 5 2, .store 20 5]⟩

/-- `inlineAddSpinReconDir2Minus`, include/scalarsite_sse/sse_spin_recon_inlines.h:2513-2700 -/
def inlineAddSpinReconDir2Minus : Fn :=
  ⟨[.setf 6 0 true, .setf 6 1 false, .setf 6 2 true, .setf 6 3 false, .setf 7 0 true, .setf 7 1 false, .setf 7 2 false, .setf 7 3 true, .load 0 false 0, .load 1 false 4, .load 2 false 8, .load 3 true 0, .load 4 true 4, .load 5 true 8, .add 3 3 0, .add 4 4 1, .add 5 5 2, .store 0 3, .store 4 4, .store 8 5],
   [.incS 12, .load 3 true 12, .load 4 true 16, .load 5 true 20, .shuf 0 0 0 0xB1, .mul 0 0 6, .add 3 3 0, .store 12 3, .shuf 1 1 1 0xB1, .mul 1 1 7, .add 4 4 1, .store 16 4, .shuf 2 2 2 0xB1, .mul 2 2 6, .sub 5 5 2, .store 20 5, .incD 24, .load 0 false 0, .load 1 false 4, .load 2 false 8, .load 3 true 0, .load 4 true 4, .load 5 true 8, .add 3 3 0, .add 4 4 1, .add 5 5 2, .store 0 3, .store 4 4, .store 8 5],
   [.load 3 true 12, .load 4 true 16, .load 5 true 20, .shuf 0 0 0 0xB1, .mul 0 0 6, .add 3 3 0, .store 12 3, .shuf 1 1 1 0xB1, .mul 1 1 7, .add 4 4 1, .store 16 4, .shuf 2 2 2 0xB1, .mul 2 2 6, .sub 5 5 2, .store 20 5]⟩

/-- `inlineAddSpinReconDir3Plus`, include/scalarsite_sse/sse_spin_recon_inlines.h:2716-2817 -/
def inlineAddSpinReconDir3Plus : Fn :=
  ⟨[.load 0 false 0, .load 1 false 4, .load 2 false 8, .load 3 true 0, .load 4 true 4, .load 5 true 8, .add 3 3 0, .add 4 4 1, .add 5 5 2, .store 0 3, .store 4 4, .store 8 5],
   [.incS 12, .load 3 true 12, .load 4 true 16, .load 5 true 20, .add 3 3 0, .add 4 4 1, .add 5 5 2, .store 12 3, .store 16 4, .store 20 5, .incD 24, .load 0 false 0, .load 1 false 4, .load 2 false 8, .load 3 true 0, .load 4 true 4, .load 5 true 8, .add 3 3 0, .add 4 4 1, .add 5 5 2, .store 0 3, .store 4 4, .store 8 5],
   [.load 3 true 12, .load 4 true 16, .load 5 true 20, .add 3 3 0, .add 4 4 1, .add 5 5 2, .store 12 3, .store 16 4, .store 20 5]⟩

/-- `inlineAddSpinReconDir3Minus`, include/scalarsite_sse/sse_spin_recon_inlines.h:2832-2930 -/
def inlineAddSpinReconDir3Minus : Fn :=
  ⟨[.load 0 false 0, .load 1 false 4, .load 2 false 8, .load 3 true 0, .load 4 true 4, .load 5 true 8, .add 3 3 0, .add 4 4 1, .add 5 5 2, .store 0 3, .store 4 4, .store 8 5],
   [.incS 12, .load 3 true 12, .load 4 true 16, .load 5 true 20, .sub 3 3 0, .sub 4 4 1, .sub 5 5 2, .store 12 3, .store 16 4, .store 20 5, .incD 24, .load 0 false 0, .load 1 false 4, .load 2 false 8, .load 3 true 0, .load 4 true 4, .load 5 true 8, .add 3 3 0, .add 4 4 1, .add 5 5 2, .store 0 3, .store 4 4, .store 8 5],
   [.load 3 true 12, .load 4 true 16, .load 5 true 20, .sub 3 3 0, .sub 4 4 1, .sub 5 5 2, .store 12 3, .store 16 4, .store 20 5]⟩

/-- the eight `inlineAddSpinReconDir` of include/scalarsite_sse/sse_spin_recon_inlines.h, in the order 0Plus, 0Minus, 1Plus, ... -/
def addReconF : Fin 8 → Fn := ![inlineAddSpinReconDir0Plus, inlineAddSpinReconDir0Minus, inlineAddSpinReconDir1Plus, inlineAddSpinReconDir1Minus, inlineAddSpinReconDir2Plus, inlineAddSpinReconDir2Minus, inlineAddSpinReconDir3Plus, inlineAddSpinReconDir3Minus]

end Verif.SseSpin
