import Verif.Props.Accounts

/-!
# When the sender is recovered from a signed transaction (C43)

Transactions record the parity of the nonce's point, but not whether its abscissa is below the group order.  By `C43_legacy`, `C43_eip155`,
`C43_eip2930` and `C43_eip1559` the numbers `r`, `s` and the parity in a signed transaction satisfy `SignedBy`; here is what recovery makes of them.
-/

namespace LCT.Props
open LCT.BigInt LCT.Spec LCT.Out LCT.Modular LCT.Curve LCT.Crypto LCT.Ethereum

/-- C43, exactly: recovery from the hash, `r`, `s` and the parity always returns; if the point that a verifier computes has an abscissa below the
group order, it returns the signer's key and no other key, and if not, the signer's key is not among the keys returned. -/
theorem C43_sender_exact (m : Build) (w : Nat) [DigitWidth w] (cp : Params) (hcp : (secp256k1 w : Out Unit _) = .ok cp) (d : Nat) (hd0 : 0 < d)
    (hdn : d < Secp256k1.n) (hash : List UInt8) (hh : hash.length = 32) (hz : ofBE hash ≠ 0) (xr xs : BInt) (r s parity : Nat)
    (hr : Denotes w xr r) (hs : Denotes w xs s) (hsig : SignedBy d (ofBE hash) r s parity) :
    ∃ keys, recover m w ⟨xr, xs, cp⟩ hash (RecoveryId.fromU8 (UInt8.ofNat parity)) = .ok keys ∧
      ((∃ k ∈ keys, PointDenotes w k.data (d • LCT.Secp256k1.G)) ↔
        xCoord (((ofBE hash : ZMod Secp256k1.n) * (s : ZMod Secp256k1.n)⁻¹).val • LCT.Secp256k1.G +
          ((r : ZMod Secp256k1.n) * (s : ZMod Secp256k1.n)⁻¹).val • d • LCT.Secp256k1.G) < Secp256k1.n) ∧
      ((∃ k ∈ keys, PointDenotes w k.data (d • LCT.Secp256k1.G)) → keys.length = 1) := by
  obtain ⟨cp', e, hD, hcof⟩ := secp256k1_y (ε := Unit) w
  rw [hcp] at e
  injection e with e
  subst e
  have hlead : leadingBits (bitLength Secp256k1.n) hash = ofBE hash := by
    unfold leadingBits
    rw [bitLength_n, hh, show 32 * 8 - 256 = 0 from rfl, Nat.pow_zero, Nat.div_one]
  have hne : hash ≠ [] := by intro h; rw [h] at hh; cases hh
  have ⟨hr0, hrn, hs0, hsn, hver, hpar⟩ := hsig
  obtain ⟨id, hid, hodd, hhigh⟩ : ∃ id, RecoveryId.fromU8 (UInt8.ofNat parity) = some id ∧
      idOdd id = decide (parity = 1) ∧ idHigh id = false := by
    rcases (show parity = 0 ∨ parity = 1 by omega) with rfl | rfl
    · exact ⟨.LowXEvenY, rfl, rfl, rfl⟩
    · exact ⟨.LowXOddY, rfl, rfl, rfl⟩
  obtain ⟨keys, e, Qs, hf, hnd, hmem⟩ := C23_exact m w cp Secp256k1.p Secp256k1.n 0 7 LCT.Secp256k1.G hD (by rw [hcof]; decide)
    ⟨xr, xs, cp⟩ rfl r s hr0 hrn hs0 hsn hr hs hash (some id) .default (fun _ => by rw [bitLength_n]) hcof
    (by decide +kernel) hne (fun _ => by rw [bitLength_n, hh]) (by rw [hlead]; exact hz)
  have hiff : (∃ k ∈ keys, PointDenotes w k.data (d • LCT.Secp256k1.G)) ↔
        xCoord (((ofBE hash : ZMod Secp256k1.n) * (s : ZMod Secp256k1.n)⁻¹).val • LCT.Secp256k1.G +
          ((r : ZMod Secp256k1.n) * (s : ZMod Secp256k1.n)⁻¹).val • d • LCT.Secp256k1.G) < Secp256k1.n := by
    constructor
    · rintro ⟨pk, hpk, hpt⟩
      obtain ⟨i, hi, rfl⟩ := List.mem_iff_getElem.mp hpk
      have hi' := hi
      rw [hf.length_eq] at hi'
      have hkk := (List.forall₂_iff_get.mp hf).2 i hi hi'
      simp only [List.get_eq_getElem] at hkk
      have hin := (hmem _).mp (List.getElem_mem hi')
      have h := (hin.2.2 _ rfl).1
      rw [denotes_inj hkk.2 hpt, hlead, hhigh] at h
      by_contra hc
      exact absurd h.symm (by rw [decide_eq_true (Nat.le_of_not_lt hc)]; exact Bool.true_eq_false_eq_False)
    · intro hlow
      have hin : d • LCT.Secp256k1.G ∈ Qs := by
        rw [hmem, hlead]
        refine ⟨smul_ne_zero' hD.G_ne hD.G_order (cast_ne_zero_of_lt hd0 hdn), hver, fun i hi => ?_⟩
        cases hi
        refine ⟨?_, ?_⟩
        · rw [hhigh]
          exact (decide_eq_false (Nat.not_le_of_lt hlow)).symm
        · rw [hodd, hpar]
      obtain ⟨i, hi, hQ⟩ := List.mem_iff_getElem.mp hin
      have hi' : i < keys.length := by rw [hf.length_eq]; exact hi
      have hkk := (List.forall₂_iff_get.mp hf).2 i hi' hi
      simp only [List.get_eq_getElem] at hkk
      rw [hQ] at hkk
      exact ⟨_, List.getElem_mem hi', hkk.2⟩
  refine ⟨keys, by rw [hid]; exact e, hiff, fun h => ?_⟩
  have hlow := hiff.mp h
  obtain ⟨pk, e2, -⟩ := C23_unique m w cp Secp256k1.p Secp256k1.n 0 7 LCT.Secp256k1.G hD (by rw [hcof]; decide)
    ⟨xr, xs, cp⟩ rfl r s hr0 hrn hs0 hsn hr hs hash (some id) .default (fun _ => by rw [bitLength_n]) hcof
    (by decide +kernel) hne (fun _ => by rw [bitLength_n, hh]) (by rw [hlead]; exact hz) (d • LCT.Secp256k1.G)
    (smul_ne_zero' hD.G_ne hD.G_order (cast_ne_zero_of_lt hd0 hdn)) (by rw [hlead]; exact hver) id rfl
    (by
      rw [hlead]
      refine ⟨?_, ?_⟩
      · rw [hhigh]
        exact (decide_eq_false (Nat.not_le_of_lt hlow)).symm
      · rw [hodd, hpar])
  rw [e] at e2
  injection e2 with e2
  rw [e2]
  rfl

/-- The hypotheses can be met, in the case in which the signer is not found. -/
example : ∃ d, 0 < d ∧ d < Secp256k1.n ∧ SignedBy d (ofBE (octets 32 1)) 2 1 1 := by
  obtain ⟨d, h0, hn, h, -⟩ := C43_high_x_violated .debug 64
  exact ⟨d, h0, hn, by rw [show ofBE (octets 32 1) = 1 by decide +kernel]; exact h⟩

end LCT.Props
