import Verif.Model.Hash.Sha3
import Verif.Spec.Sha3
import Mathlib.Tactic.FinCases

/-!
# The steps of the permutation, on the lanes of the state

The rounds are unrolled in the code; the lemmas on the single statements are written out for a state with lanes `a0` … `a24`.
-/

namespace LCT.Hash.Sha3
open LCT

section
variable (b0 b1 b2 b3 b4 a0 a1 a2 a3 a4 a5 a6 a7 a8 a9 a10 a11 a12 a13 a14 a15 a16 a17 a18 a19 a20 a21 a22 a23 a24 t : BitVec 64)

theorem theta1_0 : theta1 ⟨#v[b0, b1, b2, b3, b4], #v[a0, a1, a2, a3, a4, a5, a6, a7, a8, a9, a10, a11, a12, a13, a14, a15, a16, a17, a18, a19, a20, a21, a22, a23, a24]⟩ 0 0 5 10 15 20 =
    ⟨#v[a0 ^^^ a5 ^^^ a10 ^^^ a15 ^^^ a20, b1, b2, b3, b4], #v[a0, a1, a2, a3, a4, a5, a6, a7, a8, a9, a10, a11, a12, a13, a14, a15, a16, a17, a18, a19, a20, a21, a22, a23, a24]⟩ := rfl

theorem theta1_1 : theta1 ⟨#v[b0, b1, b2, b3, b4], #v[a0, a1, a2, a3, a4, a5, a6, a7, a8, a9, a10, a11, a12, a13, a14, a15, a16, a17, a18, a19, a20, a21, a22, a23, a24]⟩ 1 1 6 11 16 21 =
    ⟨#v[b0, a1 ^^^ a6 ^^^ a11 ^^^ a16 ^^^ a21, b2, b3, b4], #v[a0, a1, a2, a3, a4, a5, a6, a7, a8, a9, a10, a11, a12, a13, a14, a15, a16, a17, a18, a19, a20, a21, a22, a23, a24]⟩ := rfl

theorem theta1_2 : theta1 ⟨#v[b0, b1, b2, b3, b4], #v[a0, a1, a2, a3, a4, a5, a6, a7, a8, a9, a10, a11, a12, a13, a14, a15, a16, a17, a18, a19, a20, a21, a22, a23, a24]⟩ 2 2 7 12 17 22 =
    ⟨#v[b0, b1, a2 ^^^ a7 ^^^ a12 ^^^ a17 ^^^ a22, b3, b4], #v[a0, a1, a2, a3, a4, a5, a6, a7, a8, a9, a10, a11, a12, a13, a14, a15, a16, a17, a18, a19, a20, a21, a22, a23, a24]⟩ := rfl

theorem theta1_3 : theta1 ⟨#v[b0, b1, b2, b3, b4], #v[a0, a1, a2, a3, a4, a5, a6, a7, a8, a9, a10, a11, a12, a13, a14, a15, a16, a17, a18, a19, a20, a21, a22, a23, a24]⟩ 3 3 8 13 18 23 =
    ⟨#v[b0, b1, b2, a3 ^^^ a8 ^^^ a13 ^^^ a18 ^^^ a23, b4], #v[a0, a1, a2, a3, a4, a5, a6, a7, a8, a9, a10, a11, a12, a13, a14, a15, a16, a17, a18, a19, a20, a21, a22, a23, a24]⟩ := rfl

theorem theta1_4 : theta1 ⟨#v[b0, b1, b2, b3, b4], #v[a0, a1, a2, a3, a4, a5, a6, a7, a8, a9, a10, a11, a12, a13, a14, a15, a16, a17, a18, a19, a20, a21, a22, a23, a24]⟩ 4 4 9 14 19 24 =
    ⟨#v[b0, b1, b2, b3, a4 ^^^ a9 ^^^ a14 ^^^ a19 ^^^ a24], #v[a0, a1, a2, a3, a4, a5, a6, a7, a8, a9, a10, a11, a12, a13, a14, a15, a16, a17, a18, a19, a20, a21, a22, a23, a24]⟩ := rfl

theorem theta2_0 : theta2 ⟨#v[b0, b1, b2, b3, b4], #v[a0, a1, a2, a3, a4, a5, a6, a7, a8, a9, a10, a11, a12, a13, a14, a15, a16, a17, a18, a19, a20, a21, a22, a23, a24]⟩ 4 1 0 5 10 15 20 =
    ⟨#v[b0, b1, b2, b3, b4], #v[a0 ^^^ (b4 ^^^ b1.rotateLeft 1), a1, a2, a3, a4, a5 ^^^ (b4 ^^^ b1.rotateLeft 1), a6, a7, a8, a9, a10 ^^^ (b4 ^^^ b1.rotateLeft 1), a11, a12, a13, a14, a15 ^^^ (b4 ^^^ b1.rotateLeft 1), a16, a17, a18, a19, a20 ^^^ (b4 ^^^ b1.rotateLeft 1), a21, a22, a23, a24]⟩ := rfl

theorem theta2_1 : theta2 ⟨#v[b0, b1, b2, b3, b4], #v[a0, a1, a2, a3, a4, a5, a6, a7, a8, a9, a10, a11, a12, a13, a14, a15, a16, a17, a18, a19, a20, a21, a22, a23, a24]⟩ 0 2 1 6 11 16 21 =
    ⟨#v[b0, b1, b2, b3, b4], #v[a0, a1 ^^^ (b0 ^^^ b2.rotateLeft 1), a2, a3, a4, a5, a6 ^^^ (b0 ^^^ b2.rotateLeft 1), a7, a8, a9, a10, a11 ^^^ (b0 ^^^ b2.rotateLeft 1), a12, a13, a14, a15, a16 ^^^ (b0 ^^^ b2.rotateLeft 1), a17, a18, a19, a20, a21 ^^^ (b0 ^^^ b2.rotateLeft 1), a22, a23, a24]⟩ := rfl

theorem theta2_2 : theta2 ⟨#v[b0, b1, b2, b3, b4], #v[a0, a1, a2, a3, a4, a5, a6, a7, a8, a9, a10, a11, a12, a13, a14, a15, a16, a17, a18, a19, a20, a21, a22, a23, a24]⟩ 1 3 2 7 12 17 22 =
    ⟨#v[b0, b1, b2, b3, b4], #v[a0, a1, a2 ^^^ (b1 ^^^ b3.rotateLeft 1), a3, a4, a5, a6, a7 ^^^ (b1 ^^^ b3.rotateLeft 1), a8, a9, a10, a11, a12 ^^^ (b1 ^^^ b3.rotateLeft 1), a13, a14, a15, a16, a17 ^^^ (b1 ^^^ b3.rotateLeft 1), a18, a19, a20, a21, a22 ^^^ (b1 ^^^ b3.rotateLeft 1), a23, a24]⟩ := rfl

theorem theta2_3 : theta2 ⟨#v[b0, b1, b2, b3, b4], #v[a0, a1, a2, a3, a4, a5, a6, a7, a8, a9, a10, a11, a12, a13, a14, a15, a16, a17, a18, a19, a20, a21, a22, a23, a24]⟩ 2 4 3 8 13 18 23 =
    ⟨#v[b0, b1, b2, b3, b4], #v[a0, a1, a2, a3 ^^^ (b2 ^^^ b4.rotateLeft 1), a4, a5, a6, a7, a8 ^^^ (b2 ^^^ b4.rotateLeft 1), a9, a10, a11, a12, a13 ^^^ (b2 ^^^ b4.rotateLeft 1), a14, a15, a16, a17, a18 ^^^ (b2 ^^^ b4.rotateLeft 1), a19, a20, a21, a22, a23 ^^^ (b2 ^^^ b4.rotateLeft 1), a24]⟩ := rfl

theorem theta2_4 : theta2 ⟨#v[b0, b1, b2, b3, b4], #v[a0, a1, a2, a3, a4, a5, a6, a7, a8, a9, a10, a11, a12, a13, a14, a15, a16, a17, a18, a19, a20, a21, a22, a23, a24]⟩ 3 0 4 9 14 19 24 =
    ⟨#v[b0, b1, b2, b3, b4], #v[a0, a1, a2, a3, a4 ^^^ (b3 ^^^ b0.rotateLeft 1), a5, a6, a7, a8, a9 ^^^ (b3 ^^^ b0.rotateLeft 1), a10, a11, a12, a13, a14 ^^^ (b3 ^^^ b0.rotateLeft 1), a15, a16, a17, a18, a19 ^^^ (b3 ^^^ b0.rotateLeft 1), a20, a21, a22, a23, a24 ^^^ (b3 ^^^ b0.rotateLeft 1)]⟩ := rfl

theorem rhoPi_0 : rhoPi ⟨#v[b0, b1, b2, b3, b4], #v[a0, a1, a2, a3, a4, a5, a6, a7, a8, a9, a10, a11, a12, a13, a14, a15, a16, a17, a18, a19, a20, a21, a22, a23, a24]⟩ t 0 =
    ⟨#v[a10, b1, b2, b3, b4], #v[a0, a1, a2, a3, a4, a5, a6, a7, a8, a9, t.rotateLeft 1, a11, a12, a13, a14, a15, a16, a17, a18, a19, a20, a21, a22, a23, a24]⟩ := rfl

theorem rhoPi_1 : rhoPi ⟨#v[b0, b1, b2, b3, b4], #v[a0, a1, a2, a3, a4, a5, a6, a7, a8, a9, a10, a11, a12, a13, a14, a15, a16, a17, a18, a19, a20, a21, a22, a23, a24]⟩ t 1 =
    ⟨#v[a7, b1, b2, b3, b4], #v[a0, a1, a2, a3, a4, a5, a6, t.rotateLeft 3, a8, a9, a10, a11, a12, a13, a14, a15, a16, a17, a18, a19, a20, a21, a22, a23, a24]⟩ := rfl

theorem rhoPi_2 : rhoPi ⟨#v[b0, b1, b2, b3, b4], #v[a0, a1, a2, a3, a4, a5, a6, a7, a8, a9, a10, a11, a12, a13, a14, a15, a16, a17, a18, a19, a20, a21, a22, a23, a24]⟩ t 2 =
    ⟨#v[a11, b1, b2, b3, b4], #v[a0, a1, a2, a3, a4, a5, a6, a7, a8, a9, a10, t.rotateLeft 6, a12, a13, a14, a15, a16, a17, a18, a19, a20, a21, a22, a23, a24]⟩ := rfl

theorem rhoPi_3 : rhoPi ⟨#v[b0, b1, b2, b3, b4], #v[a0, a1, a2, a3, a4, a5, a6, a7, a8, a9, a10, a11, a12, a13, a14, a15, a16, a17, a18, a19, a20, a21, a22, a23, a24]⟩ t 3 =
    ⟨#v[a17, b1, b2, b3, b4], #v[a0, a1, a2, a3, a4, a5, a6, a7, a8, a9, a10, a11, a12, a13, a14, a15, a16, t.rotateLeft 10, a18, a19, a20, a21, a22, a23, a24]⟩ := rfl

theorem rhoPi_4 : rhoPi ⟨#v[b0, b1, b2, b3, b4], #v[a0, a1, a2, a3, a4, a5, a6, a7, a8, a9, a10, a11, a12, a13, a14, a15, a16, a17, a18, a19, a20, a21, a22, a23, a24]⟩ t 4 =
    ⟨#v[a18, b1, b2, b3, b4], #v[a0, a1, a2, a3, a4, a5, a6, a7, a8, a9, a10, a11, a12, a13, a14, a15, a16, a17, t.rotateLeft 15, a19, a20, a21, a22, a23, a24]⟩ := rfl

theorem rhoPi_5 : rhoPi ⟨#v[b0, b1, b2, b3, b4], #v[a0, a1, a2, a3, a4, a5, a6, a7, a8, a9, a10, a11, a12, a13, a14, a15, a16, a17, a18, a19, a20, a21, a22, a23, a24]⟩ t 5 =
    ⟨#v[a3, b1, b2, b3, b4], #v[a0, a1, a2, t.rotateLeft 21, a4, a5, a6, a7, a8, a9, a10, a11, a12, a13, a14, a15, a16, a17, a18, a19, a20, a21, a22, a23, a24]⟩ := rfl

theorem rhoPi_6 : rhoPi ⟨#v[b0, b1, b2, b3, b4], #v[a0, a1, a2, a3, a4, a5, a6, a7, a8, a9, a10, a11, a12, a13, a14, a15, a16, a17, a18, a19, a20, a21, a22, a23, a24]⟩ t 6 =
    ⟨#v[a5, b1, b2, b3, b4], #v[a0, a1, a2, a3, a4, t.rotateLeft 28, a6, a7, a8, a9, a10, a11, a12, a13, a14, a15, a16, a17, a18, a19, a20, a21, a22, a23, a24]⟩ := rfl

theorem rhoPi_7 : rhoPi ⟨#v[b0, b1, b2, b3, b4], #v[a0, a1, a2, a3, a4, a5, a6, a7, a8, a9, a10, a11, a12, a13, a14, a15, a16, a17, a18, a19, a20, a21, a22, a23, a24]⟩ t 7 =
    ⟨#v[a16, b1, b2, b3, b4], #v[a0, a1, a2, a3, a4, a5, a6, a7, a8, a9, a10, a11, a12, a13, a14, a15, t.rotateLeft 36, a17, a18, a19, a20, a21, a22, a23, a24]⟩ := rfl

theorem rhoPi_8 : rhoPi ⟨#v[b0, b1, b2, b3, b4], #v[a0, a1, a2, a3, a4, a5, a6, a7, a8, a9, a10, a11, a12, a13, a14, a15, a16, a17, a18, a19, a20, a21, a22, a23, a24]⟩ t 8 =
    ⟨#v[a8, b1, b2, b3, b4], #v[a0, a1, a2, a3, a4, a5, a6, a7, t.rotateLeft 45, a9, a10, a11, a12, a13, a14, a15, a16, a17, a18, a19, a20, a21, a22, a23, a24]⟩ := rfl

theorem rhoPi_9 : rhoPi ⟨#v[b0, b1, b2, b3, b4], #v[a0, a1, a2, a3, a4, a5, a6, a7, a8, a9, a10, a11, a12, a13, a14, a15, a16, a17, a18, a19, a20, a21, a22, a23, a24]⟩ t 9 =
    ⟨#v[a21, b1, b2, b3, b4], #v[a0, a1, a2, a3, a4, a5, a6, a7, a8, a9, a10, a11, a12, a13, a14, a15, a16, a17, a18, a19, a20, t.rotateLeft 55, a22, a23, a24]⟩ := rfl

theorem rhoPi_10 : rhoPi ⟨#v[b0, b1, b2, b3, b4], #v[a0, a1, a2, a3, a4, a5, a6, a7, a8, a9, a10, a11, a12, a13, a14, a15, a16, a17, a18, a19, a20, a21, a22, a23, a24]⟩ t 10 =
    ⟨#v[a24, b1, b2, b3, b4], #v[a0, a1, a2, a3, a4, a5, a6, a7, a8, a9, a10, a11, a12, a13, a14, a15, a16, a17, a18, a19, a20, a21, a22, a23, t.rotateLeft 2]⟩ := rfl

theorem rhoPi_11 : rhoPi ⟨#v[b0, b1, b2, b3, b4], #v[a0, a1, a2, a3, a4, a5, a6, a7, a8, a9, a10, a11, a12, a13, a14, a15, a16, a17, a18, a19, a20, a21, a22, a23, a24]⟩ t 11 =
    ⟨#v[a4, b1, b2, b3, b4], #v[a0, a1, a2, a3, t.rotateLeft 14, a5, a6, a7, a8, a9, a10, a11, a12, a13, a14, a15, a16, a17, a18, a19, a20, a21, a22, a23, a24]⟩ := rfl

theorem rhoPi_12 : rhoPi ⟨#v[b0, b1, b2, b3, b4], #v[a0, a1, a2, a3, a4, a5, a6, a7, a8, a9, a10, a11, a12, a13, a14, a15, a16, a17, a18, a19, a20, a21, a22, a23, a24]⟩ t 12 =
    ⟨#v[a15, b1, b2, b3, b4], #v[a0, a1, a2, a3, a4, a5, a6, a7, a8, a9, a10, a11, a12, a13, a14, t.rotateLeft 27, a16, a17, a18, a19, a20, a21, a22, a23, a24]⟩ := rfl

theorem rhoPi_13 : rhoPi ⟨#v[b0, b1, b2, b3, b4], #v[a0, a1, a2, a3, a4, a5, a6, a7, a8, a9, a10, a11, a12, a13, a14, a15, a16, a17, a18, a19, a20, a21, a22, a23, a24]⟩ t 13 =
    ⟨#v[a23, b1, b2, b3, b4], #v[a0, a1, a2, a3, a4, a5, a6, a7, a8, a9, a10, a11, a12, a13, a14, a15, a16, a17, a18, a19, a20, a21, a22, t.rotateLeft 41, a24]⟩ := rfl

theorem rhoPi_14 : rhoPi ⟨#v[b0, b1, b2, b3, b4], #v[a0, a1, a2, a3, a4, a5, a6, a7, a8, a9, a10, a11, a12, a13, a14, a15, a16, a17, a18, a19, a20, a21, a22, a23, a24]⟩ t 14 =
    ⟨#v[a19, b1, b2, b3, b4], #v[a0, a1, a2, a3, a4, a5, a6, a7, a8, a9, a10, a11, a12, a13, a14, a15, a16, a17, a18, t.rotateLeft 56, a20, a21, a22, a23, a24]⟩ := rfl

theorem rhoPi_15 : rhoPi ⟨#v[b0, b1, b2, b3, b4], #v[a0, a1, a2, a3, a4, a5, a6, a7, a8, a9, a10, a11, a12, a13, a14, a15, a16, a17, a18, a19, a20, a21, a22, a23, a24]⟩ t 15 =
    ⟨#v[a13, b1, b2, b3, b4], #v[a0, a1, a2, a3, a4, a5, a6, a7, a8, a9, a10, a11, a12, t.rotateLeft 8, a14, a15, a16, a17, a18, a19, a20, a21, a22, a23, a24]⟩ := rfl

theorem rhoPi_16 : rhoPi ⟨#v[b0, b1, b2, b3, b4], #v[a0, a1, a2, a3, a4, a5, a6, a7, a8, a9, a10, a11, a12, a13, a14, a15, a16, a17, a18, a19, a20, a21, a22, a23, a24]⟩ t 16 =
    ⟨#v[a12, b1, b2, b3, b4], #v[a0, a1, a2, a3, a4, a5, a6, a7, a8, a9, a10, a11, t.rotateLeft 25, a13, a14, a15, a16, a17, a18, a19, a20, a21, a22, a23, a24]⟩ := rfl

theorem rhoPi_17 : rhoPi ⟨#v[b0, b1, b2, b3, b4], #v[a0, a1, a2, a3, a4, a5, a6, a7, a8, a9, a10, a11, a12, a13, a14, a15, a16, a17, a18, a19, a20, a21, a22, a23, a24]⟩ t 17 =
    ⟨#v[a2, b1, b2, b3, b4], #v[a0, a1, t.rotateLeft 43, a3, a4, a5, a6, a7, a8, a9, a10, a11, a12, a13, a14, a15, a16, a17, a18, a19, a20, a21, a22, a23, a24]⟩ := rfl

theorem rhoPi_18 : rhoPi ⟨#v[b0, b1, b2, b3, b4], #v[a0, a1, a2, a3, a4, a5, a6, a7, a8, a9, a10, a11, a12, a13, a14, a15, a16, a17, a18, a19, a20, a21, a22, a23, a24]⟩ t 18 =
    ⟨#v[a20, b1, b2, b3, b4], #v[a0, a1, a2, a3, a4, a5, a6, a7, a8, a9, a10, a11, a12, a13, a14, a15, a16, a17, a18, a19, t.rotateLeft 62, a21, a22, a23, a24]⟩ := rfl

theorem rhoPi_19 : rhoPi ⟨#v[b0, b1, b2, b3, b4], #v[a0, a1, a2, a3, a4, a5, a6, a7, a8, a9, a10, a11, a12, a13, a14, a15, a16, a17, a18, a19, a20, a21, a22, a23, a24]⟩ t 19 =
    ⟨#v[a14, b1, b2, b3, b4], #v[a0, a1, a2, a3, a4, a5, a6, a7, a8, a9, a10, a11, a12, a13, t.rotateLeft 18, a15, a16, a17, a18, a19, a20, a21, a22, a23, a24]⟩ := rfl

theorem rhoPi_20 : rhoPi ⟨#v[b0, b1, b2, b3, b4], #v[a0, a1, a2, a3, a4, a5, a6, a7, a8, a9, a10, a11, a12, a13, a14, a15, a16, a17, a18, a19, a20, a21, a22, a23, a24]⟩ t 20 =
    ⟨#v[a22, b1, b2, b3, b4], #v[a0, a1, a2, a3, a4, a5, a6, a7, a8, a9, a10, a11, a12, a13, a14, a15, a16, a17, a18, a19, a20, a21, t.rotateLeft 39, a23, a24]⟩ := rfl

theorem rhoPi_21 : rhoPi ⟨#v[b0, b1, b2, b3, b4], #v[a0, a1, a2, a3, a4, a5, a6, a7, a8, a9, a10, a11, a12, a13, a14, a15, a16, a17, a18, a19, a20, a21, a22, a23, a24]⟩ t 21 =
    ⟨#v[a9, b1, b2, b3, b4], #v[a0, a1, a2, a3, a4, a5, a6, a7, a8, t.rotateLeft 61, a10, a11, a12, a13, a14, a15, a16, a17, a18, a19, a20, a21, a22, a23, a24]⟩ := rfl

theorem rhoPi_22 : rhoPi ⟨#v[b0, b1, b2, b3, b4], #v[a0, a1, a2, a3, a4, a5, a6, a7, a8, a9, a10, a11, a12, a13, a14, a15, a16, a17, a18, a19, a20, a21, a22, a23, a24]⟩ t 22 =
    ⟨#v[a6, b1, b2, b3, b4], #v[a0, a1, a2, a3, a4, a5, t.rotateLeft 20, a7, a8, a9, a10, a11, a12, a13, a14, a15, a16, a17, a18, a19, a20, a21, a22, a23, a24]⟩ := rfl

theorem rhoPi_23 : rhoPi ⟨#v[b0, b1, b2, b3, b4], #v[a0, a1, a2, a3, a4, a5, a6, a7, a8, a9, a10, a11, a12, a13, a14, a15, a16, a17, a18, a19, a20, a21, a22, a23, a24]⟩ t 23 =
    ⟨#v[a1, b1, b2, b3, b4], #v[a0, t.rotateLeft 44, a2, a3, a4, a5, a6, a7, a8, a9, a10, a11, a12, a13, a14, a15, a16, a17, a18, a19, a20, a21, a22, a23, a24]⟩ := rfl

theorem chi_0 : chi ⟨#v[b0, b1, b2, b3, b4], #v[a0, a1, a2, a3, a4, a5, a6, a7, a8, a9, a10, a11, a12, a13, a14, a15, a16, a17, a18, a19, a20, a21, a22, a23, a24]⟩ 0 1 2 3 4 =
    ⟨#v[a0, a1, a2, a3, a4], #v[a0 ^^^ (~~~a1 &&& a2), a1 ^^^ (~~~a2 &&& a3), a2 ^^^ (~~~a3 &&& a4), a3 ^^^ (~~~a4 &&& a0), a4 ^^^ (~~~a0 &&& a1), a5, a6, a7, a8, a9, a10, a11, a12, a13, a14, a15, a16, a17, a18, a19, a20, a21, a22, a23, a24]⟩ := rfl

theorem chi_1 : chi ⟨#v[b0, b1, b2, b3, b4], #v[a0, a1, a2, a3, a4, a5, a6, a7, a8, a9, a10, a11, a12, a13, a14, a15, a16, a17, a18, a19, a20, a21, a22, a23, a24]⟩ 5 6 7 8 9 =
    ⟨#v[a5, a6, a7, a8, a9], #v[a0, a1, a2, a3, a4, a5 ^^^ (~~~a6 &&& a7), a6 ^^^ (~~~a7 &&& a8), a7 ^^^ (~~~a8 &&& a9), a8 ^^^ (~~~a9 &&& a5), a9 ^^^ (~~~a5 &&& a6), a10, a11, a12, a13, a14, a15, a16, a17, a18, a19, a20, a21, a22, a23, a24]⟩ := rfl

theorem chi_2 : chi ⟨#v[b0, b1, b2, b3, b4], #v[a0, a1, a2, a3, a4, a5, a6, a7, a8, a9, a10, a11, a12, a13, a14, a15, a16, a17, a18, a19, a20, a21, a22, a23, a24]⟩ 10 11 12 13 14 =
    ⟨#v[a10, a11, a12, a13, a14], #v[a0, a1, a2, a3, a4, a5, a6, a7, a8, a9, a10 ^^^ (~~~a11 &&& a12), a11 ^^^ (~~~a12 &&& a13), a12 ^^^ (~~~a13 &&& a14), a13 ^^^ (~~~a14 &&& a10), a14 ^^^ (~~~a10 &&& a11), a15, a16, a17, a18, a19, a20, a21, a22, a23, a24]⟩ := rfl

theorem chi_3 : chi ⟨#v[b0, b1, b2, b3, b4], #v[a0, a1, a2, a3, a4, a5, a6, a7, a8, a9, a10, a11, a12, a13, a14, a15, a16, a17, a18, a19, a20, a21, a22, a23, a24]⟩ 15 16 17 18 19 =
    ⟨#v[a15, a16, a17, a18, a19], #v[a0, a1, a2, a3, a4, a5, a6, a7, a8, a9, a10, a11, a12, a13, a14, a15 ^^^ (~~~a16 &&& a17), a16 ^^^ (~~~a17 &&& a18), a17 ^^^ (~~~a18 &&& a19), a18 ^^^ (~~~a19 &&& a15), a19 ^^^ (~~~a15 &&& a16), a20, a21, a22, a23, a24]⟩ := rfl

theorem chi_4 : chi ⟨#v[b0, b1, b2, b3, b4], #v[a0, a1, a2, a3, a4, a5, a6, a7, a8, a9, a10, a11, a12, a13, a14, a15, a16, a17, a18, a19, a20, a21, a22, a23, a24]⟩ 20 21 22 23 24 =
    ⟨#v[a20, a21, a22, a23, a24], #v[a0, a1, a2, a3, a4, a5, a6, a7, a8, a9, a10, a11, a12, a13, a14, a15, a16, a17, a18, a19, a20 ^^^ (~~~a21 &&& a22), a21 ^^^ (~~~a22 &&& a23), a22 ^^^ (~~~a23 &&& a24), a23 ^^^ (~~~a24 &&& a20), a24 ^^^ (~~~a20 &&& a21)]⟩ := rfl

end

theorem exists_lanes (s : KState) : ∃ a0 a1 a2 a3 a4 a5 a6 a7 a8 a9 a10 a11 a12 a13 a14 a15 a16 a17 a18 a19 a20 a21 a22 a23 a24 : BitVec 64, s = #v[a0, a1, a2, a3, a4, a5, a6, a7, a8, a9, a10, a11, a12, a13, a14, a15, a16, a17, a18, a19, a20, a21, a22, a23, a24] := by
  refine ⟨s[0], s[1], s[2], s[3], s[4], s[5], s[6], s[7], s[8], s[9], s[10], s[11], s[12], s[13], s[14], s[15], s[16], s[17], s[18], s[19], s[20],
    s[21], s[22], s[23], s[24], ?_⟩
  apply Vector.ext
  intro i hi
  obtain ⟨j, hj⟩ : ∃ j : Fin 25, j.val = i := ⟨⟨i, hi⟩, rfl⟩
  subst hj
  fin_cases j <;> rfl

theorem exists_bc (b : Vector (BitVec 64) 5) : ∃ b0 b1 b2 b3 b4 : BitVec 64, b = #v[b0, b1, b2, b3, b4] := by
  refine ⟨b[0], b[1], b[2], b[3], b[4], ?_⟩
  apply Vector.ext
  intro i hi
  obtain ⟨j, hj⟩ : ∃ j : Fin 5, j.val = i := ⟨⟨i, hi⟩, rfl⟩
  subst hj
  fin_cases j <;> rfl

/-- The lane with coordinates `x`, `y`. -/
def lane (s : KState) (x y : Fin 5) : BitVec 64 := s[5 * y.val + x.val]'(by omega)

/-- The parities of the columns. -/
def C (s : KState) (x : Fin 5) : BitVec 64 := lane s x 0 ^^^ lane s x 1 ^^^ lane s x 2 ^^^ lane s x 3 ^^^ lane s x 4

theorem rotateLeft_zero (x : BitVec 64) : x.rotateLeft 0 = x := by
  apply BitVec.eq_of_getLsbD_eq
  intro i hi
  rw [BitVec.getLsbD_rotateLeft]
  simp [hi]

theorem theta_lane (v : Vars) (x y : Fin 5) :
    lane (thetaStep v).s x y = lane v.s x y ^^^ (C v.s (x - 1) ^^^ (C v.s (x + 1)).rotateLeft 1) := by
  obtain ⟨b, s⟩ := v
  obtain ⟨a0, a1, a2, a3, a4, a5, a6, a7, a8, a9, a10, a11, a12, a13, a14, a15, a16, a17, a18, a19, a20, a21, a22, a23, a24, rfl⟩ := exists_lanes s
  obtain ⟨b0, b1, b2, b3, b4, rfl⟩ := exists_bc b
  simp only [thetaStep, theta1_0, theta2_0, theta1_1, theta2_1, theta1_2, theta2_2, theta1_3, theta2_3, theta1_4, theta2_4]
  fin_cases x <;> fin_cases y <;> rfl

theorem rhoPi_lane (v : Vars) (x y : Fin 5) :
    lane (rhoPiStep v).s x y = (lane v.s (x + 3 * y) x).rotateLeft (Spec.Sha3.rhoOffset (x + 3 * y) x) := by
  obtain ⟨b, s⟩ := v
  obtain ⟨a0, a1, a2, a3, a4, a5, a6, a7, a8, a9, a10, a11, a12, a13, a14, a15, a16, a17, a18, a19, a20, a21, a22, a23, a24, rfl⟩ := exists_lanes s
  obtain ⟨b0, b1, b2, b3, b4, rfl⟩ := exists_bc b
  simp only [rhoPiStep, rhoPi_0, rhoPi_1, rhoPi_2, rhoPi_3, rhoPi_4, rhoPi_5, rhoPi_6, rhoPi_7, rhoPi_8, rhoPi_9, rhoPi_10, rhoPi_11, rhoPi_12, rhoPi_13, rhoPi_14, rhoPi_15, rhoPi_16, rhoPi_17, rhoPi_18, rhoPi_19, rhoPi_20, rhoPi_21, rhoPi_22, rhoPi_23]
  fin_cases x <;> fin_cases y <;> first | rfl | exact (rotateLeft_zero _).symm

theorem chi_lane (v : Vars) (x y : Fin 5) :
    lane (chiStep v).s x y = lane v.s x y ^^^ (~~~(lane v.s (x + 1) y) &&& lane v.s (x + 2) y) := by
  obtain ⟨b, s⟩ := v
  obtain ⟨a0, a1, a2, a3, a4, a5, a6, a7, a8, a9, a10, a11, a12, a13, a14, a15, a16, a17, a18, a19, a20, a21, a22, a23, a24, rfl⟩ := exists_lanes s
  obtain ⟨b0, b1, b2, b3, b4, rfl⟩ := exists_bc b
  simp only [chiStep, chi_0, chi_1, chi_2, chi_3, chi_4]
  fin_cases x <;> fin_cases y <;> rfl

