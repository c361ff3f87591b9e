import Verif.Spec.Sha3
import Verif.Lemmas.Hash.Sponge

/-!
# Keccak-f is a permutation
-/

namespace LCT.Hash.Sha3
open LCT.Spec.Sha3

/-! ## θ -/

/-- One step: `P = N (L P)` implies `P = N² (L² P)`, where `N` adds a copy shifted by `s` and `L` adds three rotations. -/
theorem parity_square (P : Fin 5 → Fin 64 → Bool) (a b c : Fin 5) (s : Fin 64)
    (h : ∀ x z, P x z = (((P (x + a) z ^^ P (x + b) z) ^^ P (x + c) z) ^^ ((P (x + a) (z - s) ^^ P (x + b) (z - s)) ^^ P (x + c) (z - s)))) (x : Fin 5) (z : Fin 64) :
    P x z = (((P (x + (a + a)) z ^^ P (x + (b + b)) z) ^^ P (x + (c + c)) z) ^^
      ((P (x + (a + a)) (z - (s + s)) ^^ P (x + (b + b)) (z - (s + s))) ^^ P (x + (c + c)) (z - (s + s)))) := by
  have e1 : ∀ u v : Fin 5, x + u + v = x + (u + v) := fun u v => by omega
  have e2 : z - s - s = z - (s + s) := by omega
  have ba : b + a = a + b := by omega
  have ca : c + a = a + c := by omega
  have cb : c + b = b + c := by omega
  rw [h x z, h (x + a) z, h (x + b) z, h (x + c) z, h (x + a) (z - s), h (x + b) (z - s), h (x + c) (z - s)]
  simp only [e1, e2, ba, ca, cb]
  generalize P (x + (a + a)) z = q1, P (x + (b + b)) z = q2, P (x + (c + c)) z = q3, P (x + (a + b)) z = q4, P (x + (a + c)) z = q5,
    P (x + (b + c)) z = q6, P (x + (a + a)) (z - s) = r1, P (x + (b + b)) (z - s) = r2, P (x + (c + c)) (z - s) = r3, P (x + (a + b)) (z - s) = r4,
    P (x + (a + c)) (z - s) = r5, P (x + (b + c)) (z - s) = r6, P (x + (a + a)) (z - (s + s)) = t1, P (x + (b + b)) (z - (s + s)) = t2,
    P (x + (c + c)) (z - (s + s)) = t3, P (x + (a + b)) (z - (s + s)) = t4, P (x + (a + c)) (z - (s + s)) = t5, P (x + (b + c)) (z - (s + s)) = t6
  simp [Bool.xor_comm, Bool.xor_left_comm]

/-- Column parities that `θ` would cancel are zero. -/
theorem parity_zero (P : Fin 5 → Fin 64 → Bool) (h : ∀ x z, P x z = (P (x - 1) z ^^ P (x + 1) (z - 1))) (x : Fin 5) (z : Fin 64) : P x z = false := by
  have h0 : ∀ x z, P x z = (((P (x + 1) z ^^ P (x + 3) z) ^^ P (x + 4) z) ^^ ((P (x + 1) (z - 1) ^^ P (x + 3) (z - 1)) ^^ P (x + 4) (z - 1))) := by
    intro x z
    have a0 := h x z
    have a1 := h (x + 2) z
    have a2 := h (x + 3) z
    have e1 : x - 1 = x + 4 := by omega
    have e2 : x + 2 - 1 = x + 1 := by omega
    have e3 : x + 2 + 1 = x + 3 := by omega
    have e4 : x + 3 - 1 = x + 2 := by omega
    have e5 : x + 3 + 1 = x + 4 := by omega
    rw [e1] at a0
    rw [e2, e3] at a1
    rw [e4, e5] at a2
    rw [a0]
    rw [a1] at a2
    revert a2
    generalize P (x + 4) z = p4, P (x + 1) z = p1, P (x + 3) z = p3, P (x + 1) (z - 1) = q1, P (x + 3) (z - 1) = q3, P (x + 4) (z - 1) = q4
    revert p4 p1 p3 q1 q3 q4
    decide
  have h1 := parity_square P 1 3 4 1 h0
  have h2 := parity_square P _ _ _ _ h1
  have h3 := parity_square P _ _ _ _ h2
  have h4 := parity_square P _ _ _ _ h3
  have h5 := parity_square P _ _ _ _ h4
  have h6 := parity_square P _ _ _ _ h5 x z
  rw [h6]
  have e : ∀ z : Fin 64, z - (1 + 1 + (1 + 1) + (1 + 1 + (1 + 1)) + (1 + 1 + (1 + 1) + (1 + 1 + (1 + 1))) +
      (1 + 1 + (1 + 1) + (1 + 1 + (1 + 1)) + (1 + 1 + (1 + 1) + (1 + 1 + (1 + 1)))) +
      (1 + 1 + (1 + 1) + (1 + 1 + (1 + 1)) + (1 + 1 + (1 + 1) + (1 + 1 + (1 + 1))) +
      (1 + 1 + (1 + 1) + (1 + 1 + (1 + 1)) + (1 + 1 + (1 + 1) + (1 + 1 + (1 + 1)))))) = z := by decide
  rw [e]
  exact Bool.xor_self _

theorem theta_inj {A B : Arr} (h : theta A = theta B) : A = B := by
  have hb : ∀ x y z, theta A x y z = theta B x y z := fun x y z => by rw [h]
  let P (x : Fin 5) (z : Fin 64) : Bool := ((((A x 0 z ^^ A x 1 z) ^^ A x 2 z) ^^ A x 3 z) ^^ A x 4 z) ^^ ((((B x 0 z ^^ B x 1 z) ^^ B x 2 z) ^^ B x 3 z) ^^ B x 4 z)
  have hd : ∀ x y z, (A x y z ^^ B x y z) = (P (x - 1) z ^^ P (x + 1) (z - 1)) := by
    intro x y z
    have := hb x y z
    simp only [theta] at this
    simp only [P]
    revert this
    generalize ((((A (x - 1) 0 z ^^ A (x - 1) 1 z) ^^ A (x - 1) 2 z) ^^ A (x - 1) 3 z) ^^ A (x - 1) 4 z) = a1,
      ((((A (x + 1) 0 (z - 1) ^^ A (x + 1) 1 (z - 1)) ^^ A (x + 1) 2 (z - 1)) ^^ A (x + 1) 3 (z - 1)) ^^ A (x + 1) 4 (z - 1)) = a2,
      ((((B (x - 1) 0 z ^^ B (x - 1) 1 z) ^^ B (x - 1) 2 z) ^^ B (x - 1) 3 z) ^^ B (x - 1) 4 z) = b1,
      ((((B (x + 1) 0 (z - 1) ^^ B (x + 1) 1 (z - 1)) ^^ B (x + 1) 2 (z - 1)) ^^ B (x + 1) 3 (z - 1)) ^^ B (x + 1) 4 (z - 1)) = b2,
      A x y z = u, B x y z = w
    revert a1 a2 b1 b2 u w
    decide
  have hP : ∀ x z, P x z = (P (x - 1) z ^^ P (x + 1) (z - 1)) := by
    intro x z
    have d0 := hd x 0 z
    have d1 := hd x 1 z
    have d2 := hd x 2 z
    have d3 := hd x 3 z
    have d4 := hd x 4 z
    have e : P x z = (A x 0 z ^^ B x 0 z ^^ (A x 1 z ^^ B x 1 z) ^^ (A x 2 z ^^ B x 2 z) ^^ (A x 3 z ^^ B x 3 z) ^^ (A x 4 z ^^ B x 4 z)) := by
      simp only [P]
      simp [Bool.xor_comm, Bool.xor_left_comm]
    rw [e, d0, d1, d2, d3, d4]
    generalize (P (x - 1) z ^^ P (x + 1) (z - 1)) = t
    revert t
    decide
  funext x y z
  have := hd x y z
  rw [parity_zero P hP, parity_zero P hP] at this
  revert this
  generalize A x y z = u, B x y z = w
  revert u w
  decide

/-! ## ρ, π, χ, ι -/

theorem rho_inj {A B : Arr} (h : rho A = rho B) : A = B := by
  funext x y z
  have := congrFun (congrFun (congrFun h x) y) (z + Fin.ofNat 64 (rhoOffset x y))
  unfold rho at this
  have e : z + Fin.ofNat 64 (rhoOffset x y) - Fin.ofNat 64 (rhoOffset x y) = z := by
    generalize Fin.ofNat 64 (rhoOffset x y) = s
    omega
  rwa [e] at this

theorem pi_inj {A B : Arr} (h : pi A = pi B) : A = B := by
  funext x y z
  have := congrFun (congrFun (congrFun h y) (2 * (x - y))) z
  unfold pi at this
  have e : ∀ x y : Fin 5, y + 3 * (2 * (x - y)) = x := by decide
  rwa [e] at this

theorem chi_row : ∀ a b c d e a' b' c' d' e' : Bool, (a ^^ (!b && c)) = (a' ^^ (!b' && c')) → (b ^^ (!c && d)) = (b' ^^ (!c' && d')) →
    (c ^^ (!d && e)) = (c' ^^ (!d' && e')) → (d ^^ (!e && a)) = (d' ^^ (!e' && a')) → (e ^^ (!a && b)) = (e' ^^ (!a' && b')) → a = a' := by decide

theorem chi_inj {A B : Arr} (h : Spec.Sha3.chi A = Spec.Sha3.chi B) : A = B := by
  funext x y z
  have hx : ∀ i : Fin 5, Spec.Sha3.chi A i y z = Spec.Sha3.chi B i y z := fun i => by rw [h]
  have h0 := hx x
  have h1 := hx (x + 1)
  have h2 := hx (x + 2)
  have h3 := hx (x + 3)
  have h4 := hx (x + 4)
  unfold Spec.Sha3.chi at h0 h1 h2 h3 h4
  have e1 : x + 1 + 1 = x + 2 := by omega
  have e2 : x + 1 + 2 = x + 3 := by omega
  have e3 : x + 2 + 1 = x + 3 := by omega
  have e4 : x + 2 + 2 = x + 4 := by omega
  have e5 : x + 3 + 1 = x + 4 := by omega
  have e6 : x + 3 + 2 = x := by omega
  have e7 : x + 4 + 1 = x := by omega
  have e8 : x + 4 + 2 = x + 1 := by omega
  rw [e1, e2] at h1
  rw [e3, e4] at h2
  rw [e5, e6] at h3
  rw [e7, e8] at h4
  exact chi_row _ _ _ _ _ _ _ _ _ _ h0 h1 h2 h3 h4

theorem iota_inj {i : Nat} {A B : Arr} (h : iota i A = iota i B) : A = B := by
  funext x y z
  have := congrFun (congrFun (congrFun h x) y) z
  unfold iota at this
  split at this
  · simpa using this
  · exact this

theorem Rnd_inj {i : Nat} {A B : Arr} (h : Rnd A i = Rnd B i) : A = B := theta_inj (rho_inj (pi_inj (chi_inj (iota_inj h))))

theorem rounds_inj (l : List Nat) {A B : Arr} (h : l.foldl Rnd A = l.foldl Rnd B) : A = B := by
  induction l generalizing A B with
  | nil => exact h
  | cons i l ih => exact Rnd_inj (ih h)

/-! ## Strings -/

theorem toArr_inj {S T : List Bool} (hS : S.length = 1600) (hT : T.length = 1600) (h : toArr S = toArr T) : S = T := by
  apply List.ext_getElem (by omega)
  intro n h1 h2
  have hy : n / 320 < 5 := by omega
  have hx : n / 64 % 5 < 5 := by omega
  have hz : n % 64 < 64 := by omega
  have := congrFun (congrFun (congrFun h ⟨n / 64 % 5, hx⟩) ⟨n / 320, hy⟩) ⟨n % 64, hz⟩
  unfold toArr at this
  have e : 64 * (5 * (n / 320) + n / 64 % 5) + n % 64 = n := by omega
  simp only [e] at this
  simpa [List.getD_eq_getElem?_getD, h1, h2] using this

theorem flatMap_inj {α β : Type} {k : Nat} (l : List α) (f g : α → List β) (hf : ∀ x, (f x).length = k) (hg : ∀ x, (g x).length = k)
    (h : l.flatMap f = l.flatMap g) : ∀ x ∈ l, f x = g x := by
  induction l with
  | nil => simp
  | cons a l ih =>
    rw [List.flatMap_cons, List.flatMap_cons] at h
    have := List.append_inj h (by rw [hf, hg])
    intro x hx
    rcases List.mem_cons.mp hx with rfl | hx
    · exact this.1
    · exact ih this.2 x hx

theorem ofArr_inj {A B : Arr} (h : ofArr A = ofArr B) : A = B := by
  have h1 := flatMap_inj (k := 320) _ _ _ (fun y => by simp [List.length_flatMap]) (fun y => by simp [List.length_flatMap]) h
  funext x y z
  have h2 := flatMap_inj (k := 64) _ _ _ (fun x => by simp) (fun x => by simp) (h1 y (List.mem_finRange y)) x (List.mem_finRange x)
  have h3 := List.map_inj_left.mp h2 z (List.mem_finRange z)
  exact h3

theorem f_inj {S T : List Bool} (hS : S.length = 1600) (hT : T.length = 1600) (h : f S = f T) : S = T :=
  toArr_inj hS hT (rounds_inj _ (ofArr_inj h))

theorem stateBits_length (s : KState) : (stateBits s).length = 1600 := by rw [← ofArr_arrOf, ofArr_length]

theorem laneBits_inj {a b : BitVec 64} (h : laneBits a = laneBits b) : a = b := by
  apply BitVec.eq_of_getLsbD_eq
  intro i hi
  have := List.map_inj_left.mp h ⟨i, hi⟩ (List.mem_finRange _)
  simpa using this

theorem stateBits_inj {s t : KState} (h : stateBits s = stateBits t) : s = t := by
  have key : ∀ l m : List (BitVec 64), l.flatMap laneBits = m.flatMap laneBits → l.length = m.length → l = m := by
    intro l
    induction l with
    | nil => intro m _ hl; exact (List.length_eq_zero_iff.mp hl.symm).symm
    | cons a l ih =>
      intro m h hl
      cases m with
      | nil => simp at hl
      | cons b m =>
        rw [List.flatMap_cons, List.flatMap_cons] at h
        obtain ⟨h1, h2⟩ := List.append_inj h (by simp [laneBits])
        rw [laneBits_inj h1, ih m h2 (by simpa using hl)]
  exact Vector.toList_inj.mp (key _ _ h (by simp))

end LCT.Hash.Sha3
