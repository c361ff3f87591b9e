import Verif.Lemmas.BigInt.GcdLoop

namespace LCT.BigInt
open LCT.Spec
variable {ε : Type}

/-- The loop state holds `A > B` and the coefficients `UA`, `UB`. -/
structure SInv (w n nb a0 b0 : Nat) (s : GcdSt) (A B : Nat) (UA UB : Int) : Prop where
  fa : Filled w n A s.a s.aLen
  fb : Filled w nb B s.b s.bLen
  fua : SFilled w n UA s.ua s.uaLen s.uaSign
  fub : SFilled w n UB s.ub s.ubLen s.ubSign
  rel : Rel a0 b0 A B UA UB

theorem Filled.lt_pow {w n v : Nat} {buf : List Nat} {len : Nat} (h : Filled w n v buf len) : v < 2 ^ (w * n) := by
  have := val_lt h.digits
  rwa [h.value, h.length] at this

theorem natAbs_eq_abs (u : Int) : (u.natAbs : Int) = |u| := Int.natCast_natAbs u

theorem sinv_abs_le {a0 b0 A B UA UB : Int} (h : Rel a0 b0 A B UA UB) : |UB| ≤ a0 := by
  have h1 : |UB| * 1 ≤ |UB| * A := mul_le_mul_of_nonneg_left (by have := h.lt; have := h.nonneg; omega) (abs_nonneg _)
  have h2 : 0 ≤ |UA| * B := mul_nonneg (abs_nonneg _) h.nonneg
  have := h.sum
  omega

theorem euclidStep_spec (m : Build) {w n nb a0 b0 A B : Nat} {UA UB : Int} {s : GcdSt} (hw : 1 ≤ w) (hn : 1 ≤ n) (hnb : 1 ≤ nb)
    (ha0 : a0 < 2 ^ (w * n)) (h : SInv w n nb a0 b0 s A B UA UB) (hB : B ≠ 0) :
    ∃ s' UA' UB', (euclidStep m w n nb s : Out ε _) = .ok s' ∧ SInv w n nb a0 b0 s' B (A % B) UA' UB' := by
  obtain ⟨fa, fb, fua, fub, rel⟩ := h
  have hlt : B < A := by exact_mod_cast rel.lt
  have hle : A ≤ a0 := by exact_mod_cast rel.le
  have hbl := fb.len_le hnb
  have hal := fa.len_le hn
  have va := fa.valid hn
  have vb := fb.valid hnb
  have hla := fa.length_take hn
  have hlb := fb.length_take hnb
  have hvA := fa.val_take hn
  have hvB := fb.val_take hnb
  have hbal : s.bLen ≤ s.aLen := by rw [← hla, ← hlb]; exact vb.length_le_of_val_le va (by omega)
  simp only [euclidStep, fa.sliceTo hn, fb.sliceTo hnb, Out.bind_ok]
  rw [decide_eq_true hbl, rassert_true, Out.bind_ok]
  obtain ⟨q, ql, r, rl, ed, fq, -⟩ := divRemDigits_spec (ε := ε) m hw va vb (by rw [hvB]; exact hB) (nq := n) (nr := s.bLen)
    (by omega) (by omega) (by omega)
  rw [hvA, hvB] at fq
  simp only [ed, Out.bind_ok, fq.sliceTo hn]
  have hlq := fq.length_take hn
  have hql := fq.len_le hn
  have vq := fq.valid hn
  have hvq := fq.val_take hn
  have hn2 : 1 ≤ n * 2 := by omega
  obtain ⟨p, pl, ep, fp⟩ := mulDigits_spec (ε := ε) m vq vb (n := n * 2) (by omega)
  rw [hvq, hvB] at fp
  have hdm := Nat.div_add_mod A B
  have hpA : A / B * B ≤ A := Nat.div_mul_le_self A B
  have hpl : pl ≤ n := fp.len_le_of_lt hn2 hn (by have := fa.lt_pow; omega)
  obtain ⟨t, tl, et, ft⟩ := subDigits_spec (ε := ε) m va (fp.valid hn2) (n := n * 2)
    (by rw [fp.length_take hn2, hla]; omega) (by rw [fp.val_take hn2, hvA]; exact hpA)
  rw [fp.val_take hn2, hvA] at ft
  have hmod : A - A / B * B = A % B := by rw [Nat.mul_comm] at hpA ⊢; omega
  rw [hmod] at ft
  have hml : A % B < B := Nat.mod_lt _ (by omega)
  obtain ⟨a', ea', fa'⟩ := copyBuf_spec (ε := ε) fb hnb hn (by have := fa.lt_pow; omega)
  obtain ⟨b', eb', fb'⟩ := copyBuf_spec (ε := ε) ft hn2 hnb (by have := fb.lt_pow; omega)
  rw [← fa.length] at ea'
  rw [← fb.length] at eb'
  simp only [ep, et, ea', eb', Out.bind_ok, fp.sliceTo hn2, fua.filled.sliceTo hn, fub.filled.sliceTo hn]
  obtain ⟨hrel, habs, hbnd⟩ := rel.euclid (by exact_mod_cast hB)
  have hua := fua.filled
  have hub := fub.filled
  have hlua := hua.length_take hn
  have hlub := hub.length_take hn
  obtain ⟨p2, pl2, ep2, fp2⟩ := mulDigits_spec (ε := ε) m vq (hub.valid hn) (n := n * 2)
    (by rw [hlub]; have := hub.len_le hn; omega)
  rw [hvq, hub.val_take hn] at fp2
  have hqu : A / B * UB.natAbs ≤ a0 := by
    have : ((A / B * UB.natAbs : Nat) : Int) ≤ a0 := by
      push_cast
      have := abs_nonneg UA
      omega
    exact_mod_cast this
  have hpl2 : pl2 ≤ n := fp2.len_le_of_lt hn2 hn (by omega)
  obtain ⟨t', tl', g', et', ft'⟩ := signedSub_spec (ε := ε) m (hua.valid hn) (fp2.valid hn2) s.uaSign s.ubSign (n := n * 2)
    (by rw [hlua, fp2.length_take hn2]; have := hua.len_le hn; omega)
  rw [hua.val_take hn, fp2.val_take hn2, sval_mul, ← fua.sign, ← fub.sign] at ft'
  simp only [ep2, fp2.sliceTo hn2, Out.bind_ok, et']
  obtain ⟨ua', eua', fua'⟩ := copyBuf_spec (ε := ε) hub hn hn hub.lt_pow
  have hfin : (UA - ((A / B : Nat) : Int) * UB).natAbs < 2 ^ (w * n) := by
    have : (((UA - ((A / B : Nat) : Int) * UB).natAbs : Nat) : Int) ≤ a0 := by
      rw [natAbs_eq_abs]; push_cast; rw [habs]; exact hbnd
    omega
  obtain ⟨ub', eub', fub'⟩ := copyBuf_spec (ε := ε) ft'.filled hn2 hn hfin
  rw [← hua.length] at eua'
  rw [← hub.length] at eub'
  simp only [eua', eub', Out.bind_ok]
  refine ⟨_, UB, _, rfl, ⟨fa', fb', ⟨fua', fub.sign⟩, ⟨fub', ft'.sign⟩, ?_⟩⟩
  push_cast
  exact hrel

theorem lehmerStep_spec (m : Build) {w n nb a0 b0 A B : Nat} {UA UB : Int} {s : GcdSt} (hn : 1 ≤ n) (hnb : 1 ≤ nb) (hnn : nb ≤ n)
    (ha0 : a0 < 2 ^ (w * n)) (h : SInv w n nb a0 b0 s A B UA UB) (d : Dpcc) (hu0 : d.u0 < 2 ^ w) (hu1 : d.u1 < 2 ^ w)
    (hv0 : d.v0 < 2 ^ w) (hv1 : d.v1 < 2 ^ w) (hpos : 0 < d.v0) (hpos1 : 0 < d.v1) (g : Good A B d.odd d.u0 d.u1 d.v0 d.v1) :
    ∃ s' A' B' UA' UB', (do let s ← dpccAB m w n d s; dpccU m w n d s : Out ε _) = .ok s' ∧ (A' ≤ B ∧ A' + B' ≤ A) ∧
      SInv w n nb a0 b0 s' A' B' UA' UB' := by
  obtain ⟨fa, fb, fua, fub, rel⟩ := h
  have hlt : B < A := by exact_mod_cast rel.lt
  have hle : A ≤ a0 := by exact_mod_cast rel.le
  obtain ⟨hrel, hb0, hb1, habs0, habs1⟩ := rel.lehmer (o := d.odd) (u0 := d.u0) (u1 := d.u1) (v0 := d.v0) (v1 := d.v1)
    (by omega) (by omega) (by exact_mod_cast hpos) (by omega) g
  have va := fa.valid hn
  have vb := fb.valid hnb
  have hla := fa.length_take hn
  have hlb := fb.length_take hnb
  have hvA := fa.val_take hn
  have hvB := fb.val_take hnb
  have hal := fa.len_le hn
  have hbl := fb.len_le hnb
  have hua := fua.filled
  have hub := fub.filled
  have hlua := hua.length_take hn
  have hlub := hub.length_take hn
  have hual := hua.len_le hn
  have hubl := hub.len_le hn
  have hn1 : 1 ≤ n + 1 := by omega
  -- the new remainders as natural numbers
  have hAnn : 0 ≤ -sg d.odd * (d.u0 * A - d.v0 * B) := by have := hrel.lt; have := hrel.nonneg; omega
  have hBnn := hrel.nonneg
  obtain ⟨A', hA'⟩ := Int.eq_ofNat_of_zero_le hAnn
  obtain ⟨B', hB'⟩ := Int.eq_ofNat_of_zero_le hBnn
  have hA'B : A' ≤ B := by have := g.le_b0 (by omega); rw [hA'] at this; exact_mod_cast this
  have hB'B : B' ≤ B := by have := g.le_b; rw [hB'] at this; exact_mod_cast this
  have hsum : A' + B' ≤ A := by
    have e : (d.v1 * A' + d.v0 * B' : Int) = A := by
      have hs := sg_mul_self d.odd
      have hdet := g.det
      have h1 : (A' : Int) = -sg d.odd * (d.u0 * A - d.v0 * B) := hA'.symm
      have h2 : (B' : Int) = sg d.odd * (d.u1 * A - d.v1 * B) := hB'.symm
      rw [h1, h2]
      calc (d.v1 * (-sg d.odd * (d.u0 * A - d.v0 * B)) + d.v0 * (sg d.odd * (d.u1 * A - d.v1 * B)) : Int)
          = -sg d.odd * (d.u0 * d.v1 - d.u1 * d.v0) * A := by ring
        _ = A := by rw [hdet, neg_mul_neg, hs, one_mul]
    have e' : d.v1 * A' + d.v0 * B' = A := by exact_mod_cast e
    have h1 : 1 * A' ≤ d.v1 * A' := Nat.mul_le_mul_right _ hpos1
    have h2 : 1 * B' ≤ d.v0 * B' := Nat.mul_le_mul_right _ hpos
    omega
  have hab : ∃ t1 l1 t2 l2, (if d.odd then mulSubUnsigned m w (n + 1) d.v0 (s.b.take s.bLen) d.u0 (s.a.take s.aLen)
        else mulSubUnsigned m w (n + 1) d.u0 (s.a.take s.aLen) d.v0 (s.b.take s.bLen) : Out ε _) = .ok (t1, l1) ∧
      (if d.odd then mulSubUnsigned m w (n + 1) d.u1 (s.a.take s.aLen) d.v1 (s.b.take s.bLen)
        else mulSubUnsigned m w (n + 1) d.v1 (s.b.take s.bLen) d.u1 (s.a.take s.aLen) : Out ε _) = .ok (t2, l2) ∧
      Filled w (n + 1) A' t1 l1 ∧ Filled w (n + 1) B' t2 l2 := by
    cases ho : d.odd
    · rw [ho] at hA' hB'
      simp only [sg, Bool.false_eq_true, if_false] at hA' hB'
      have e1 : d.u0 * A = A' + d.v0 * B := by zify; omega
      have e2 : d.v1 * B = B' + d.u1 * A := by zify; omega
      obtain ⟨t1, l1, x1, f1⟩ := mulSubUnsigned_spec (ε := ε) m hu0 hv0 va vb (n := n + 1) (by omega) (by omega) (by rw [hvA, hvB]; omega)
      obtain ⟨t2, l2, x2, f2⟩ := mulSubUnsigned_spec (ε := ε) m hv1 hu1 vb va (n := n + 1) (by omega) (by omega) (by rw [hvA, hvB]; omega)
      refine ⟨t1, l1, t2, l2, x1, x2, ?_, ?_⟩
      · rw [hvA, hvB] at f1; convert f1 using 1; omega
      · rw [hvA, hvB] at f2; convert f2 using 1; omega
    · rw [ho] at hA' hB'
      simp only [sg, if_true] at hA' hB'
      have e1 : d.v0 * B = A' + d.u0 * A := by zify; omega
      have e2 : d.u1 * A = B' + d.v1 * B := by zify; omega
      obtain ⟨t1, l1, x1, f1⟩ := mulSubUnsigned_spec (ε := ε) m hv0 hu0 vb va (n := n + 1) (by omega) (by omega) (by rw [hvA, hvB]; omega)
      obtain ⟨t2, l2, x2, f2⟩ := mulSubUnsigned_spec (ε := ε) m hu1 hv1 va vb (n := n + 1) (by omega) (by omega) (by rw [hvA, hvB]; omega)
      refine ⟨t1, l1, t2, l2, x1, x2, ?_, ?_⟩
      · rw [hvA, hvB] at f1; convert f1 using 1; omega
      · rw [hvA, hvB] at f2; convert f2 using 1; omega
  obtain ⟨t1, l1, t2, l2, x1, x2, f1, f2⟩ := hab
  obtain ⟨a', ea', fa'⟩ := copyBuf_spec (ε := ε) f1 hn1 hn (by have := fa.lt_pow; omega)
  obtain ⟨b', eb', fb'⟩ := copyBuf_spec (ε := ε) f2 hn1 hnb (by have := fb.lt_pow; omega)
  rw [← fa.length] at ea'
  rw [← fb.length] at eb'
  -- the new coefficients
  have bu0 : d.u0 * UA.natAbs < 2 ^ (w * n) ∧ d.v0 * UB.natAbs < 2 ^ (w * n) := by
    have h1 : ((d.u0 * UA.natAbs + d.v0 * UB.natAbs : Nat) : Int) ≤ a0 := by
      push_cast; exact hb0
    have h1 : d.u0 * UA.natAbs + d.v0 * UB.natAbs ≤ a0 := by exact_mod_cast h1
    omega
  have bu1 : d.u1 * UA.natAbs < 2 ^ (w * n) ∧ d.v1 * UB.natAbs < 2 ^ (w * n) := by
    have h1 : ((d.u1 * UA.natAbs + d.v1 * UB.natAbs : Nat) : Int) ≤ a0 := by
      push_cast; exact hb1
    have h1 : d.u1 * UA.natAbs + d.v1 * UB.natAbs ≤ a0 := by exact_mod_cast h1
    omega
  have hvua := hua.val_take hn
  have hvub := hub.val_take hn
  have hu : ∃ t1 l1 g1 t2 l2 g2, (if d.odd then mulSubSigned m w (n + 1) d.v0 (s.ub.take s.ubLen) s.ubSign d.u0 (s.ua.take s.uaLen) s.uaSign
        else mulSubSigned m w (n + 1) d.u0 (s.ua.take s.uaLen) s.uaSign d.v0 (s.ub.take s.ubLen) s.ubSign : Out ε _) = .ok (t1, l1, g1) ∧
      (if d.odd then mulSubSigned m w (n + 1) d.u1 (s.ua.take s.uaLen) s.uaSign d.v1 (s.ub.take s.ubLen) s.ubSign
        else mulSubSigned m w (n + 1) d.v1 (s.ub.take s.ubLen) s.ubSign d.u1 (s.ua.take s.uaLen) s.uaSign : Out ε _) = .ok (t2, l2, g2) ∧
      SFilled w (n + 1) (-sg d.odd * (d.u0 * UA - d.v0 * UB)) t1 l1 g1 ∧ SFilled w (n + 1) (sg d.odd * (d.u1 * UA - d.v1 * UB)) t2 l2 g2 := by
    cases ho : d.odd
    · obtain ⟨t1, l1, g1, x1, f1⟩ := mulSubSigned_spec (ε := ε) m hu0 hv0 hn (hua.valid hn) (hub.valid hn) (by omega) (by omega)
        s.uaSign s.ubSign (by rw [hvua]; exact bu0.1) (by rw [hvub]; exact bu0.2)
      obtain ⟨t2, l2, g2, x2, f2⟩ := mulSubSigned_spec (ε := ε) m hv1 hu1 hn (hub.valid hn) (hua.valid hn) (by omega) (by omega)
        s.ubSign s.uaSign (by rw [hvub]; exact bu1.2) (by rw [hvua]; exact bu1.1)
      rw [hvua, hvub, ← fua.sign, ← fub.sign] at f1 f2
      refine ⟨t1, l1, g1, t2, l2, g2, x1, x2, ?_, ?_⟩
      · convert f1 using 1; simp [sg]
      · convert f2 using 1; simp [sg]
    · obtain ⟨t1, l1, g1, x1, f1⟩ := mulSubSigned_spec (ε := ε) m hv0 hu0 hn (hub.valid hn) (hua.valid hn) (by omega) (by omega)
        s.ubSign s.uaSign (by rw [hvub]; exact bu0.2) (by rw [hvua]; exact bu0.1)
      obtain ⟨t2, l2, g2, x2, f2⟩ := mulSubSigned_spec (ε := ε) m hu1 hv1 hn (hua.valid hn) (hub.valid hn) (by omega) (by omega)
        s.uaSign s.ubSign (by rw [hvua]; exact bu1.1) (by rw [hvub]; exact bu1.2)
      rw [hvua, hvub, ← fua.sign, ← fub.sign] at f1 f2
      refine ⟨t1, l1, g1, t2, l2, g2, x1, x2, ?_, ?_⟩
      · convert f1 using 1; simp [sg]
      · convert f2 using 1; simp [sg]
  obtain ⟨r1, k1, g1, r2, k2, g2, y1, y2, s1, s2⟩ := hu
  have hab0 : (-sg d.odd * (d.u0 * UA - d.v0 * UB)).natAbs < 2 ^ (w * n) := by
    have : (((-sg d.odd * (d.u0 * UA - d.v0 * UB)).natAbs : Nat) : Int) ≤ a0 := by rw [natAbs_eq_abs, habs0]; exact hb0
    omega
  have hab1 : (sg d.odd * (d.u1 * UA - d.v1 * UB)).natAbs < 2 ^ (w * n) := by
    have : (((sg d.odd * (d.u1 * UA - d.v1 * UB)).natAbs : Nat) : Int) ≤ a0 := by rw [natAbs_eq_abs, habs1]; exact hb1
    omega
  obtain ⟨ua', eua', fua'⟩ := copyBuf_spec (ε := ε) s1.filled hn1 hn hab0
  obtain ⟨ub', eub', fub'⟩ := copyBuf_spec (ε := ε) s2.filled hn1 hn hab1
  rw [← hua.length] at eua'
  rw [← hub.length] at eub'
  rw [hA', hB'] at hrel
  refine ⟨⟨a', l1, b', l2, ua', k1, g1, ub', k2, g2⟩, A', B', _, _, ?_, ⟨hA'B, hsum⟩, ⟨fa', fb', ⟨fua', s1.sign⟩, ⟨fub', s2.sign⟩, hrel⟩⟩
  cases ho : d.odd <;> simp only [ho, Bool.false_eq_true, if_false, if_true] at x1 x2 y1 y2 <;>
    simp only [dpccAB, dpccU, ho, Bool.false_eq_true, if_false, if_true, fa.sliceTo hn, fb.sliceTo hnb, Out.bind_ok, x1, x2, ea', eb',
      Out.pure_def, hua.sliceTo hn, hub.sliceTo hn, y1, y2, eua', eub']

theorem gcdBody_spec (m : Build) {w n nb a0 b0 A B fuel : Nat} {UA UB : Int} {s : GcdSt} (hw : 1 ≤ w) (hn : 1 ≤ n) (hnb : 1 ≤ nb)
    (hnn : nb ≤ n) (ha0 : a0 < 2 ^ (w * n)) (hfuel : 2 * w < fuel) (h : SInv w n nb a0 b0 s A B UA UB) (hB : B ≠ 0) :
    ∃ s' A' B' UA' UB', (gcdBody m w n nb fuel s : Out ε _) = .ok s' ∧ (A' ≤ B ∧ A' + B' ≤ A) ∧ SInv w n nb a0 b0 s' A' B' UA' UB' := by
  have hlt : B < A := by exact_mod_cast h.rel.lt
  have heuc : ∃ s' A' B' UA' UB', (euclidStep m w n nb s : Out ε _) = .ok s' ∧ (A' ≤ B ∧ A' + B' ≤ A) ∧
      SInv w n nb a0 b0 s' A' B' UA' UB' := by
    obtain ⟨s', UA', UB', e, hs⟩ := euclidStep_spec (ε := ε) m hw hn hnb ha0 h hB
    have h1 := Nat.div_add_mod A B
    have h2 : B * 1 ≤ B * (A / B) := Nat.mul_le_mul_left _ (Nat.div_pos hlt.le (by omega))
    exact ⟨s', B, A % B, UA', UB', e, ⟨Nat.le_refl _, by omega⟩, hs⟩
  simp only [gcdBody]
  by_cases hbl : 1 < s.bLen
  · rw [if_pos hbl]
    obtain ⟨K, ah, bh, hK, hah, hbh, hahw, e⟩ := dpccInit_spec (ε := ε) hw h.fa h.fb hn hnb hlt hbl
    have dA := Nat.div_add_mod A K
    have dB := Nat.div_add_mod B K
    have mA := Nat.mod_lt A hK
    have mB := Nat.mod_lt B hK
    have hbah : bh ≤ ah := by rw [← hah, ← hbh]; exact Nat.div_le_div_right hlt.le
    rw [hah] at dA
    rw [hbh] at dB
    obtain ⟨d, ed, hd⟩ := dpccLoop_spec (ε := ε) m (w := w) (K := K) (A := A) (B := B) (ah := ah) (bh := bh) (a := (A % K : Nat)) (b := (B % K : Nat))
      (by exact_mod_cast dA.symm) (by exact_mod_cast dB.symm) (by omega) (by exact_mod_cast mA) (by omega) (by exact_mod_cast mB)
      (by exact_mod_cast hlt) (by omega) hbah hahw (fuel - 1) _ (DInv.init hbah) (by
        show ah * bh < 2 ^ (fuel - 1)
        have h1 : ah * bh < 2 ^ w * 2 ^ w := Nat.mul_lt_mul'' hahw (by omega)
        have h2 : (2 : Nat) ^ w * 2 ^ w ≤ 2 ^ (fuel - 1) := by rw [← pow_add]; exact Nat.pow_le_pow_right (by omega) (by omega)
        omega)
    rw [show fuel - 1 + 1 = fuel by omega] at ed
    simp only [e, ed, Out.bind_ok]
    split
    · exact heuc
    · rename_i hv0
      rcases hd.stage with ⟨-, -, -, -, hc, -⟩ | ⟨huv1, hv1, g⟩
      · exact absurd hc hv0
      obtain ⟨b1, b2, -, b3, b4, -⟩ := hd.bnd
      have hw2 : 2 ≤ 2 ^ w := by simpa using Nat.pow_le_pow_right (n := 2) (by omega) hw
      exact lehmerStep_spec m hn hnb hnn ha0 h d (by omega) (by omega) (by omega) (by omega) (by omega) (by omega) g
  · rw [if_neg hbl]; exact heuc

/-- The loop ends after as many rounds as the product of the two numbers has bits, and one more for the last test. -/
theorem gcdLoop_spec (m : Build) {w n nb a0 b0 inner : Nat} (hw : 1 ≤ w) (hn : 1 ≤ n) (hnb : 1 ≤ nb) (hnn : nb ≤ n)
    (ha0 : a0 < 2 ^ (w * n)) (hinner : 2 * w < inner) (fuel : Nat) {A B : Nat} {UA UB : Int} {s : GcdSt}
    (h : SInv w n nb a0 b0 s A B UA UB) (hfuel : A * B < 2 ^ fuel) :
    ∃ s' A' UA' UB', (gcdLoop m w n nb inner (fuel + 1) s : Out ε _) = .ok s' ∧ SInv w n nb a0 b0 s' A' 0 UA' UB' := by
  induction fuel generalizing A B UA UB s with
  | zero =>
    have hlt : B < A := by exact_mod_cast h.rel.lt
    have hB : B = 0 := by
      rcases Nat.mul_eq_zero.mp (by simpa using hfuel : A * B = 0) with h0 | h0 <;> omega
    subst hB
    refine ⟨s, A, UA, UB, ?_, h⟩
    simp only [gcdLoop, h.fb.sliceTo hnb, Out.bind_ok, isZeroDigits_eq m (h.fb.valid hnb), h.fb.val_take hnb]
    simp
  | succ fuel ih =>
    rw [gcdLoop]
    simp only [h.fb.sliceTo hnb, Out.bind_ok, isZeroDigits_eq m (h.fb.valid hnb), h.fb.val_take hnb]
    by_cases hB : B = 0
    · subst hB
      exact ⟨s, A, UA, UB, by simp, h⟩
    · rw [decide_eq_false hB]
      simp only [Bool.false_eq_true, if_false]
      obtain ⟨s', A', B', UA', UB', e, ⟨h1, h2⟩, h'⟩ := gcdBody_spec (ε := ε) m hw hn hnb hnn ha0 hinner h hB
      rw [e, Out.bind_ok]
      refine ih h' ?_
      have hlt : B' < A' := by exact_mod_cast h'.rel.lt
      have h3 : A' * (2 * B') ≤ B * A := Nat.mul_le_mul h1 (by omega)
      rw [Nat.pow_succ, Nat.mul_comm A B] at hfuel
      rw [Nat.mul_left_comm] at h3
      omega

theorem gcdDigits_spec (m : Build) {w : Nat} (hw : 1 ≤ w) {a b : List Nat} (ha : Valid w a) (hb : Valid w b) (hb0 : 0 < val w b)
    (hlt : val w b < val w a) (fuel : Nat) (hf1 : 2 * w < fuel) (hf2 : val w a * val w b < 2 ^ (fuel - 1)) :
    ∃ yd yl ys vd vl y, (gcdDigits m w fuel a b : Out ε _) = .ok ((yd, yl, ys), (vd, vl)) ∧
      SFilled w a.length y yd yl ys ∧ Filled w a.length (Nat.gcd (val w a) (val w b)) vd vl ∧
      (val w a : Int) ∣ (Nat.gcd (val w a) (val w b) : Int) - y * val w b := by
  have hn := ha.length_pos
  have hnb := hb.length_pos
  have hnn : b.length ≤ a.length := hb.length_le_of_val_le ha hlt.le
  have hone : Filled w a.length 1 ([1] ++ List.replicate (a.length - 1) 0) 1 := by
    have := filled_write (w := w) (n := a.length) (v := 1) (out := [1]) (by simpa using hn)
      (by simp [digitsOk_cons]; omega) (by simp [val_cons]) (by simp) (Or.inl (by simp))
    simpa using this
  have hinit : SInv w a.length b.length (val w a) (val w b)
      ⟨a, a.length, b, b.length, List.replicate a.length 0, 1, .positive, [1] ++ List.replicate (a.length - 1) 0, 1, .positive⟩
      (val w a) (val w b) 0 1 := by
    refine ⟨⟨rfl, ha.digits, rfl, ha.len.symm⟩, ⟨rfl, hb.digits, rfl, hb.len.symm⟩, ⟨filled_replicate w _, rfl⟩, ⟨hone, rfl⟩, Rel.init ?_ ?_⟩
    · exact_mod_cast hlt
    · exact_mod_cast hb0
  obtain ⟨s', A', UA', UB', e, h'⟩ := gcdLoop_spec (ε := ε) m hw hn hnb hnn ha.val_lt hf1 (fuel - 1) hinit hf2
  rw [show fuel - 1 + 1 = fuel by omega] at e
  have hgcd : A' = Nat.gcd (val w a) (val w b) := by
    apply Nat.dvd_antisymm
    · have h1 := (h'.rel.common (A' : Int)).mp ⟨dvd_refl _, by simp⟩
      exact Nat.dvd_gcd (by exact_mod_cast h1.1) (by exact_mod_cast h1.2)
    · have h1 := (h'.rel.common (Nat.gcd (val w a) (val w b) : Int)).mpr
        ⟨by exact_mod_cast Nat.gcd_dvd_left _ _, by exact_mod_cast Nat.gcd_dvd_right _ _⟩
      exact_mod_cast h1.1
  subst hgcd
  refine ⟨s'.ua, s'.uaLen, s'.uaSign, s'.a, s'.aLen, UA', ?_, h'.fua, h'.fa, h'.rel.dvdA⟩
  simp only [gcdDigits, cmpDigits_eq m ha hb, Out.bind_ok, Nat.compare_eq_gt.mpr hlt, isZeroDigits_eq m hb]
  rw [decide_eq_false (by omega : ¬ val w b = 0), writeBuf_eq (by simpa using hn)]
  simp only [beq_self_eq_true, Bool.not_false, rassert_true, Out.bind_ok, List.length_singleton, e]
  rfl

/-- `gcd` on two numbers `a > b > 0`. -/
theorem gcd_spec (m : Build) {k : Nat} (hk : 1 ≤ k) {x y : BInt} (hx : WF (8 * k) x) (hy : WF (8 * k) y) (hy0 : 0 < toInt (8 * k) y)
    (hlt : toInt (8 * k) y < toInt (8 * k) x) (fuel : Nat) (hf1 : 2 * (8 * k) < fuel)
    (hf2 : (toInt (8 * k) x * toInt (8 * k) y).natAbs < 2 ^ (fuel - 1)) :
    ∃ zx zy zv cx cy, (BInt.gcd m (8 * k) fuel x y : Out ε _) = .ok (zx, zy, zv) ∧ Denotes (8 * k) zx cx ∧ Denotes (8 * k) zy cy ∧
      Denotes (8 * k) zv (Int.gcd (toInt (8 * k) x) (toInt (8 * k) y)) ∧
      cx * toInt (8 * k) x + cy * toInt (8 * k) y = Int.gcd (toInt (8 * k) x) (toInt (8 * k) y) := by
  have hw : 1 ≤ 8 * k := by omega
  generalize hwk : 8 * k = w at *
  have va := wf_valid hx
  have vb := wf_valid hy
  have hmx : (val w (x.storage.take x.len) : Int) = toInt w x := by
    have := natAbs_toInt w x
    rw [mag] at this
    omega
  have hmy : (val w (y.storage.take y.len) : Int) = toInt w y := by
    have := natAbs_toInt w y
    rw [mag] at this
    omega
  obtain ⟨yd, yl, ys, vd, vl, cy, e, fy, fv, hd⟩ := gcdDigits_spec (ε := ε) m hw va vb (by omega) (by omega) fuel hf1
    (by rw [← hmx, ← hmy, Int.natAbs_mul, Int.natAbs_natCast, Int.natAbs_natCast] at hf2; exact hf2)
  have hn := va.length_pos
  have hg : Nat.gcd (val w (x.storage.take x.len)) (val w (y.storage.take y.len)) = Int.gcd (toInt w x) (toInt w y) := by
    rw [← hmx, ← hmy]; rfl
  rw [hg, hmx, hmy] at hd
  rw [hg] at fv
  obtain ⟨wy, my⟩ := fy.filled.wf hn ys
  obtain ⟨wv, mv⟩ := fv.wf hn .positive
  have ty : toInt w ⟨yd, yl, ys⟩ = cy := by
    rw [toInt_mk, fy.filled.val_take hn, ← fy.sign]
  have tv : toInt w ⟨vd, vl, .positive⟩ = (Int.gcd (toInt w x) (toInt w y) : Int) := by
    rw [toInt_mk, fv.val_take hn]; rfl
  obtain ⟨z0, ez0, dz0, -⟩ := zero_spec (ε := ε) hk
  rw [hwk] at ez0 dz0
  obtain ⟨yb, e1, d1⟩ := mul_spec (ε := ε) m wy hy
  obtain ⟨t, e2, d2⟩ := sub_spec (ε := ε) m hk (x := ⟨vd, vl, .positive⟩) (y := yb) (hwk ▸ wv) (hwk ▸ d1.1)
  rw [hwk] at e2 d2
  obtain ⟨q, r, e3, d3, -⟩ := divRem_spec (ε := ε) m hw d2.1 hx (by omega)
  rw [d2.2, d1.2, ty, tv] at d3
  have hdiv := Int.tdiv_mul_cancel hd
  refine ⟨q, ⟨yd, yl, ys⟩, ⟨vd, vl, .positive⟩, _, cy, ?_, d3, ⟨wy, ty⟩, ⟨wv, tv⟩, ?_⟩
  · have c1 : compare (toInt w x) (toInt w y) = .gt := Int.compare_eq_gt.mpr hlt
    have c2 : compare (toInt w y) (toInt w z0) = .gt := Int.compare_eq_gt.mpr (by rw [dz0.2]; exact hy0)
    simp only [BInt.gcd, cmp_spec m hx hy, Out.bind_ok, c1, beq_self_eq_true, rassert_true, ez0, cmp_spec m hy dz0.1, c2,
      asDigits_eq m hx, asDigits_eq m hy, e, e1, e2, BInt.div, e3, Out.pure_def]
  · rw [hdiv]; ring

end LCT.BigInt
