import Verif.Model.RandomTests
import Verif.Spec.RandomTests
import Verif.Lemmas.BigInt.Yields
import Verif.Lemmas.Math.Modular
import Verif.Props.BigInt
import Mathlib.Data.Nat.Prime.Basic

/-!
# Lemmas about the project's random tests
-/

namespace LCT.RandomTests
open LCT.Spec LCT.Out LCT.BigInt LCT.Modular
variable {ε : Type} {w : Nat} [hw : DigitWidth w] (m : Build)

theorem digit_of_hex {c : UInt8} (h : IsHexDigit c) : digitVal c = some ((hexVal c).getD 0) ∧ (hexVal c).getD 0 < 16 := by
  unfold IsHexDigit hexVal at h
  unfold digitVal hexVal
  by_cases h1 : 48 ≤ c.toNat ∧ c.toNat ≤ 57
  · simp only [if_pos h1, Option.getD_some]
    exact ⟨trivial, by omega⟩
  by_cases h2 : 97 ≤ c.toNat ∧ c.toNat ≤ 102
  · simp only [if_neg h1, if_pos h2, if_pos (show 97 ≤ c.toNat ∧ c.toNat ≤ 122 by omega), Option.getD_some]
    exact ⟨trivial, by omega⟩
  by_cases h3 : 65 ≤ c.toNat ∧ c.toNat ≤ 70
  · simp only [if_neg h1, if_neg h2, if_neg (show ¬ (97 ≤ c.toNat ∧ c.toNat ≤ 122) by omega), if_pos h3,
      if_pos (show 65 ≤ c.toNat ∧ c.toNat ≤ 90 by omega), Option.getD_some]
    exact ⟨trivial, by omega⟩
  · simp only [if_neg h1, if_neg h2, if_neg h3] at h
    exact absurd h (by decide)

theorem digits_of_hex {s : List UInt8} (h : DrawnHex s) :
    DigitText 16 s (s.map fun c => (hexVal c).getD 0) ∧ horner 16 (s.map fun c => (hexVal c).getD 0) = hexNumber s := by
  refine ⟨⟨h.1, ?_, ?_⟩, ?_⟩
  · rw [List.map_map]
    exact List.map_congr_left fun c hc => (digit_of_hex (h.2.2 c hc)).1
  · intro d hd
    obtain ⟨c, hc, rfl⟩ := List.mem_map.mp hd
    exact (digit_of_hex (h.2.2 c hc)).2
  · unfold horner hexNumber
    rw [List.foldl_map]

theorem numeral_of_hex {s : List UInt8} (h : DrawnHex s) : HexNumeral s (drawnValue s : Nat) := by
  obtain ⟨h1, h2⟩ := digits_of_hex h
  exact ⟨[], s, _, 1, rfl, .none, h1, h.2.1, by rw [h2, Int.one_mul]; rfl⟩

theorem numeral_of_signed {s : List UInt8} (h : DrawnSignedHex s) : HexNumeral s (drawnSigned s) := by
  obtain ⟨body, hb, h⟩ := h
  obtain ⟨h1, h2⟩ := digits_of_hex hb
  rcases h with rfl | rfl
  · exact ⟨[43], body, _, 1, rfl, .plus, h1, hb.2.1, by rw [h2, Int.one_mul]; rfl⟩
  · exact ⟨[45], body, _, -1, rfl, .minus, h1, hb.2.1, by rw [h2, Int.neg_one_mul]; rfl⟩

theorem signed_of_hexNumeral {s : List UInt8} {z : Int} (h : HexNumeral s z) : SignedNumeral 16 16 s z := by
  obtain ⟨pre, body, ds, sg, h1, h2, h3, _, h4⟩ := h
  exact ⟨pre, body, ds, sg, h1, h2, h3, h4⟩

theorem fromHex_y {s : List UInt8} {z : Int} (h : HexNumeral s z) : (unwrapped (BInt.fromHex w s) : Out ε _).Yields (Denotes w · z) := by
  obtain ⟨k, hk, rfl⟩ := hw
  obtain ⟨x, e, d⟩ := (Props.C07_parse_iff k hk s z).mpr (.inr h)
  exact ⟨x, by rw [e]; rfl, d⟩

theorem fromStrRadix_y {s : List UInt8} {z : Int} {r : Nat} (h2 : 2 ≤ r) (h36 : r ≤ 36) (h : SignedNumeral r r s z) :
    (unwrapped (BInt.fromStrRadix m w s r) : Out ε _).Yields (Denotes w · z) := by
  obtain ⟨k, hk, rfl⟩ := hw
  obtain ⟨x, e, d⟩ := Props.C08_numerals_partial m k hk s r h2 h36 z h
  exact ⟨x, by rw [e]; rfl, d⟩

theorem ofNat_y {n : Nat} (hn : n < 2 ^ 128) : (BInt.ofNat w n : Out ε _).Yields (Denotes w · (n : Int)) := by
  obtain ⟨k, hk, rfl⟩ := hw
  exact Props.C09_from_unsigned k hk n hn

theorem andAlso_y {x y : Out ε Bool} {a b : Bool} (hx : x.Yields (· = a)) (hy : y.Yields (· = b)) : (x.andAlso y).Yields (· = (a && b)) := by
  unfold Out.andAlso
  run hx with _ rfl
  cases ‹Bool›
  · exact .pure rfl
  · exact hy.mono fun _ h => by rw [h]; rfl

/-! ## Euclid's algorithm -/

theorem euclidLoop_y : ∀ (fuel : Nat) (xa xb xua xub : BInt) (a b : Nat) (ua ub : Int), Denotes w xa a → Denotes w xb b → Denotes w xua ua →
    Denotes w xub ub → b < fuel → (euclidLoop m w fuel xa xb xua xub : Out ε _).Yields (fun r => Denotes w r.1 (Nat.gcd a b : Nat) ∧
      ∃ z, Denotes w r.2 z) := by
  intro fuel
  induction fuel with
  | zero => intro _ _ _ _ _ b _ _ _ _ _ _ h; omega
  | succ fuel ih =>
    intro xa xb xua xub a b ua ub ha hb hua hub hf
    unfold euclidLoop
    run (isZero_y m hb) with _ rfl
    by_cases h0 : b = 0
    · subst h0
      rw [show decide (((0 : Nat) : Int) = 0) = true from rfl, if_pos rfl]
      exact .pure ⟨by rwa [Nat.gcd_zero_right], ua, hua⟩
    · rw [decide_eq_false (by exact_mod_cast h0), if_neg Bool.false_ne_true]
      run (div_y m ha hb (by exact_mod_cast h0)) with q hq
      run (mul_y m hq hb) with qb hqb
      run (sub_y m ha hqb) with t ht
      run (mul_y m hq hub) with qu hqu
      run (sub_y m hua hqu) with tu htu
      have e : (a : Int) - (a : Int).tdiv b * b = ((a % b : Nat) : Int) := by
        rw [Int.tdiv_eq_ediv_of_nonneg (by omega)]
        have := Int.emod_add_mul_ediv (a : Int) b
        push_cast
        linarith [Int.mul_comm ((a : Int) / b) b]
      rw [e] at ht
      have hlt := Nat.mod_lt a (Nat.pos_of_ne_zero h0)
      refine (ih xb t xub tu b (a % b) _ _ hb ht hub htu (by omega)).mono fun r hr => ?_
      rwa [Nat.gcd_comm a b, Nat.gcd_rec, Nat.gcd_comm (a % b) b]

theorem gcdEuclidExtended_y {xn xx : BInt} {n x : Nat} (hn : Denotes w xn n) (hx : Denotes w xx x) (h : x < n) {fuel : Nat} (hf : x < fuel) :
    (gcdEuclidExtended m w fuel xn xx : Out ε _).Yields (fun r => Denotes w r.2.2 (Nat.gcd n x : Nat)) := by
  unfold gcdEuclidExtended
  run (dassertM_y m ((gt_y m hn hx).mono fun _ h' => by rw [h']; exact decide_eq_true (by omega))) with _ _
  run (zero_y w) with ua hua
  run (one_y w) with ub hub
  run (euclidLoop_y m fuel xn xx ua ub n x 0 1 hn hx hua hub hf) with ⟨a, ua'⟩ ⟨ha, z, hz⟩
  dsimp only at ha hz ⊢
  run (mul_y m hx hz) with t ht
  run (sub_y m ha ht) with t2 ht2
  run (div_y m ht2 hn (by omega)) with v hv
  exact .pure ha

/-! ## The binary algorithm -/

theorem shl1_y {x : BInt} {a : Int} (hx : Denotes w x a) (h0 : a ≠ 0) : (BInt.shl w x 1 : Out ε _).Yields (Denotes w · (a * 2)) := by
  obtain ⟨k, hk, rfl⟩ := hw
  obtain ⟨z, e, d⟩ := Props.C04_shl_partial (ε := ε) k hk x a hx 1 (.inl h0)
  exact ⟨z, e, by rwa [pow_one] at d⟩

theorem half_y {x : BInt} {a : Nat} (hx : Denotes w x (a : Nat)) : (BInt.shr m w x 1 : Out ε _).Yields (Denotes w · ((a / 2 : Nat) : Int)) := by
  refine (shr_y m hx 1).mono fun z hz => ?_
  rwa [Int.tdiv_eq_ediv_of_nonneg (by omega), pow_one] at hz

theorem halveBoth_y : ∀ (fuel : Nat) (xx xy xg : BInt) (x y g : Nat), Denotes w xx x → Denotes w xy y → Denotes w xg g → 0 < g → 0 < x → 0 < y →
    x < fuel → (halveBoth m w fuel xx xy xg : Out ε _).Yields (fun r => ∃ x' y' g' : Nat, Denotes w r.1 x' ∧ Denotes w r.2.1 y' ∧
      Denotes w r.2.2 g' ∧ 0 < x' ∧ 0 < y' ∧ ¬ (2 ∣ x' ∧ 2 ∣ y') ∧ x' ≤ x ∧ y' ≤ y ∧ g * Nat.gcd x y = g' * Nat.gcd x' y') := by
  intro fuel
  induction fuel with
  | zero => intros; omega
  | succ fuel ih =>
    intro xx xy xg x y g hx hy hg hg0 hx0 hy0 hf
    unfold halveBoth
    run (andAlso_y (isEven_y hx) (isEven_y hy)) with _ rfl
    by_cases h : 2 ∣ x ∧ 2 ∣ y
    · rw [decide_eq_true (by omega : (2 : Int) ∣ (x : Int)), decide_eq_true (by omega : (2 : Int) ∣ (y : Int)), Bool.and_self, if_pos rfl]
      run (half_y m hx) with x' hx'
      run (half_y m hy) with y' hy'
      run (shl1_y hg (by omega)) with g' hg'
      refine (ih x' y' g' (x / 2) (y / 2) (g * 2) hx' hy' (by push_cast; exact hg') (by omega) (by omega) (by omega) (by omega)).mono ?_
      rintro r ⟨a, b, c, h1, h2, h3, h4, h5, h6, h7, h8, h9⟩
      refine ⟨a, b, c, h1, h2, h3, h4, h5, h6, by omega, by omega, ?_⟩
      rw [← h9]
      obtain ⟨⟨x, rfl⟩, ⟨y, rfl⟩⟩ := h
      rw [Nat.mul_div_cancel_left x (by decide), Nat.mul_div_cancel_left y (by decide), Nat.gcd_mul_left, Nat.mul_assoc]
    · have : ((decide ((2 : Int) ∣ (x : Int))) && (decide ((2 : Int) ∣ (y : Int)))) = false := by
        rw [← Bool.decide_and]
        exact decide_eq_false (by omega)
      rw [this, if_neg Bool.false_ne_true]
      exact .pure ⟨x, y, g, hx, hy, hg, hx0, hy0, h, le_refl _, le_refl _, rfl⟩

/-- The odd part. -/
theorem halve_y {xx xy : BInt} {x y : Int} (hx : Denotes w xx x) (hy : Denotes w xy y) : ∀ (fuel : Nat) (xu xa xb : BInt) (u : Nat) (a b : Int),
    Denotes w xu u → Denotes w xa a → Denotes w xb b → 0 < u → u < fuel →
    (halve m w xx xy fuel xu xa xb : Out ε _).Yields (fun r => ∃ (u' i : Nat) (a' b' : Int), Denotes w r.1 u' ∧ Denotes w r.2.1 a' ∧
      Denotes w r.2.2 b' ∧ ¬ 2 ∣ u' ∧ u = u' * 2 ^ i) := by
  intro fuel
  induction fuel with
  | zero => intros; omega
  | succ fuel ih =>
    intro xu xa xb u a b hu ha hb hu0 hf
    unfold halve
    run (isEven_y hu) with _ rfl
    by_cases h : 2 ∣ u
    · rw [decide_eq_true (by omega : (2 : Int) ∣ (u : Int)), if_pos rfl]
      run (half_y m hu) with xu' hu'
      run (andAlso_y (isEven_y ha) (isEven_y hb)) with _ _
      have fin : ∀ (xa xb : BInt) (a b : Int), Denotes w xa a → Denotes w xb b →
          (halve m w xx xy fuel xu' xa xb : Out ε _).Yields (fun r => ∃ (u' i : Nat) (a' b' : Int), Denotes w r.1 u' ∧ Denotes w r.2.1 a' ∧
            Denotes w r.2.2 b' ∧ ¬ 2 ∣ u' ∧ u = u' * 2 ^ i) := by
        intro xa xb a b ha hb
        refine (ih xu' xa xb (u / 2) a b hu' ha hb (by omega) (by omega)).mono ?_
        rintro r ⟨u', i, a', b', h1, h2, h3, h4, h5⟩
        refine ⟨u', i + 1, a', b', h1, h2, h3, h4, ?_⟩
        rw [pow_succ, ← Nat.mul_assoc, ← h5]
        omega
      split
      · run (shr_y m ha 1) with a' ha'
        run (shr_y m hb 1) with b' hb'
        exact fin _ _ _ _ ha' hb'
      · run (add_y m ha hy) with a1 ha1
        run (shr_y m ha1 1) with a' ha'
        run (sub_y m hb hx) with b1 hb1
        run (shr_y m hb1 1) with b' hb'
        exact fin _ _ _ _ ha' hb'
    · rw [decide_eq_false (by omega), if_neg Bool.false_ne_true]
      exact .pure ⟨u, 0, a, b, hu, ha, hb, h, by rw [pow_zero, Nat.mul_one]⟩

theorem gcd_odd_left {u v i : Nat} (hv : ¬ 2 ∣ v) : Nat.gcd (u * 2 ^ i) v = Nat.gcd u v := by
  have hc : Nat.Coprime (2 ^ i) v := Nat.Coprime.pow_left i ((Nat.Prime.coprime_iff_not_dvd Nat.prime_two).mpr hv)
  exact Nat.Coprime.gcd_mul_right_cancel u hc

theorem pos_of_odd {u : Nat} (h : ¬ 2 ∣ u) : 0 < u := by omega

theorem binaryLoop_y {xx xy : BInt} {x y : Int} (hx : Denotes w xx x) (hy : Denotes w xy y) (inner : Nat) : ∀ (fuel : Nat)
    (xu xv xa xb xc xd : BInt) (u v : Nat) (a b c d : Int), Denotes w xu u → Denotes w xv v → Denotes w xa a → Denotes w xb b →
    Denotes w xc c → Denotes w xd d → 0 < v → (¬ (2 ∣ u ∧ 2 ∣ v)) → u < inner → v < inner → u + v < fuel →
    (binaryLoop m w inner xx xy fuel xu xv xa xb xc xd : Out ε _).Yields (fun r => Denotes w r.2.2 (Nat.gcd u v : Nat)) := by
  intro fuel
  induction fuel with
  | zero => intros; omega
  | succ fuel ih =>
    intro xu xv xa xb xc xd u v a b c d hu hv ha hb hc hd hv0 ho hui hvi hf
    unfold binaryLoop
    run (isZero_y m hu) with _ rfl
    by_cases h0 : u = 0
    · subst h0
      rw [show decide (((0 : Nat) : Int) = 0) = true from rfl, if_pos rfl]
      exact .pure (by rwa [Nat.gcd_zero_left])
    · rw [decide_eq_false (by exact_mod_cast h0), if_neg Bool.false_ne_true]
      run (halve_y m hx hy inner xu xa xb u a b hu ha hb (by omega) hui) with ⟨xu1, xa1, xb1⟩ ⟨u1, i, a1, b1, hu1, ha1, hb1, hodd1, e1⟩
      dsimp only at hu1 ha1 hb1 ⊢
      run (halve_y m hx hy inner xv xc xd v c d hv hc hd hv0 hvi) with ⟨xv1, xc1, xd1⟩ ⟨v1, j, c1, d1, hv1, hc1, hd1, hodd2, e2⟩
      dsimp only at hv1 hc1 hd1 ⊢
      have hg : Nat.gcd u v = Nat.gcd u1 v1 := by
        by_cases h : 2 ∣ u
        · have hv : ¬ 2 ∣ v := fun h' => ho ⟨h, h'⟩
          have : j = 0 := by
            rcases Nat.eq_zero_or_pos j with h | h
            · exact h
            · exact absurd (e2 ▸ Dvd.dvd.mul_left (dvd_pow_self 2 (by omega)) v1) hv
          subst this
          rw [pow_zero, Nat.mul_one] at e2
          rw [e1, gcd_odd_left hv, e2]
        · have : i = 0 := by
            rcases Nat.eq_zero_or_pos i with h' | h'
            · exact h'
            · exact absurd (e1 ▸ Dvd.dvd.mul_left (dvd_pow_self 2 (by omega)) u1) h
          subst this
          rw [pow_zero, Nat.mul_one] at e1
          rw [e2, Nat.gcd_comm, gcd_odd_left h, e1, Nat.gcd_comm]
      have l1 : u1 ≤ u := by rw [e1]; exact Nat.le_mul_of_pos_right _ (by positivity)
      have l2 : v1 ≤ v := by rw [e2]; exact Nat.le_mul_of_pos_right _ (by positivity)
      have p1 := pos_of_odd hodd1
      have p2 := pos_of_odd hodd2
      run (ge_y m hu1 hv1) with _ rfl
      by_cases hge : v1 ≤ u1
      · rw [decide_eq_true (by omega), if_pos rfl]
        run (sub_y m hu1 hv1) with xu2 hu2
        run (sub_y m ha1 hc1) with xa2 ha2
        run (sub_y m hb1 hd1) with xb2 hb2
        rw [← Nat.cast_sub hge] at hu2
        refine (ih xu2 xv1 xa2 xb2 xc1 xd1 (u1 - v1) v1 _ _ _ _ hu2 hv1 ha2 hb2 hc1 hd1 p2 (fun h => hodd2 h.2) (by omega) (by omega)
          (by omega)).mono fun r hr => ?_
        rwa [hg, ← Nat.gcd_sub_self_left hge]
      · rw [decide_eq_false (by omega), if_neg Bool.false_ne_true]
        run (sub_y m hv1 hu1) with xv2 hv2
        run (sub_y m hc1 ha1) with xc2 hc2
        run (sub_y m hd1 hb1) with xd2 hd2
        rw [← Nat.cast_sub (by omega : u1 ≤ v1)] at hv2
        refine (ih xu1 xv2 xa1 xb1 xc2 xd2 u1 (v1 - u1) _ _ _ _ hu1 hv2 ha1 hb1 hc2 hd2 (by omega) (fun h => hodd1 h.1) (by omega) (by omega)
          (by omega)).mono fun r hr => ?_
        rwa [hg, ← Nat.gcd_sub_self_right (by omega : u1 ≤ v1)]

theorem gcdBinaryExtended_y {xx xy : BInt} {x y : Nat} (hx : Denotes w xx x) (hy : Denotes w xy y) (hx0 : 0 < x) (hy0 : 0 < y) {fuel : Nat}
    (hf : x + y < fuel) : (gcdBinaryExtended m w fuel xx xy : Out ε _).Yields (fun r => Denotes w r.2.2 (Nat.gcd x y : Nat)) := by
  unfold gcdBinaryExtended
  run (one_y w) with g hg
  run (halveBoth_y m fuel xx xy g x y 1 hx hy hg (by decide) hx0 hy0 (by omega)) with ⟨xx', xy', g'⟩ ⟨x', y', g1, h1, h2, h3, h4, h5, h6, h7, h8, h9⟩
  dsimp only at h1 h2 h3 ⊢
  run (one_y w) with a ha
  run (zero_y w) with b hb
  run (zero_y w) with c hc
  run (one_y w) with d hd
  run (binaryLoop_y m h1 h2 fuel fuel xx' xy' a b c d x' y' 1 0 0 1 h1 h2 ha hb hc hd h5 h6 (by omega) (by omega) (by omega)) with
    ⟨c', d', v⟩ hv
  dsimp only at hv ⊢
  run (mul_y m h3 hv) with gv hgv
  refine .pure ?_
  rw [Nat.one_mul] at h9
  rw [h9]
  exact_mod_cast hgv

end LCT.RandomTests
