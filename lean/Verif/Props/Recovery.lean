import Verif.Lemmas.Crypto.Recovery
import Verif.Props.Signing

/-!
# Properties of public key recovery: C23

In all theorems `sig` is a signature on the parameters `cp`, with `0 < r, s < n`; `e` in the comments is the number made of the leading bits
of the hash, as many as the order has.  The hypothesis on the cofactor is the range of its type.
-/

namespace LCT.Props
open LCT.BigInt LCT.Spec LCT.Out LCT.Modular LCT.Curve LCT.Crypto LCT.Hash LCT.Random
variable {ε : Type}

section
variable (m : Build) (w : Nat) [DigitWidth w] (cp : Params) (p n : Nat) [hpr : Fact p.Prime] (a b : Int)
  (G : (curve (a : ZMod p) (b : ZMod p)).Point) (hD : Domain w cp p n a b G) (hcof : cp.cofactor < 2 ^ 32)
  (sig : Signature) (hp : sig.params = cp) (r s : Nat) (hr0 : 0 < r) (hrn : r < n) (hs0 : 0 < s) (hsn : s < n) (hr : Denotes w sig.r r)
  (hs : Denotes w sig.s s) (hash : List UInt8) (id : Option RecoveryId) (o : RecoveryOptions)
  (h8 : o.strictHashByteLength = true → bitLength n % 8 = 0)
include hD hcof hp hr0 hrn hs0 hsn hr hs h8

/-- Which error recovery reports and when; otherwise it returns a list.  It can panic only if the cofactor is even. -/
theorem C23_errors (res : Out RecoveryError (List PublicKey)) (hres : recoverWithOptions m w sig hash id o = res) :
    if hash = [] then res = .err .EmptyHashNotAllowed
    else if o.strictHashByteLength = true ∧ hash.length * 8 ≠ bitLength n then res = .err .HashBitLengthDoesNotMatchBasePointOrder
    else if leadingBits (bitLength n) hash = 0 then res = .err .ZeroHashNotAllowed
    else (∃ keys, res = .ok keys) ∨ (cp.cofactor % 2 = 0 ∧ res = .panic) := by
  obtain ⟨c1, c2, c3, c4⟩ := recoverWithOptions_s m hD hcof hp hr hs hr0 hrn hs0 hsn hash id o h8
  subst hres
  split
  · rename_i h; exact c1 h
  rename_i h1
  split
  · rename_i h; exact c2 h1 h.1 h.2
  rename_i h2
  have h2' : o.strictHashByteLength = true → hash.length * 8 = bitLength n := fun h => by by_contra hc; exact h2 ⟨h, hc⟩
  split
  · rename_i h; exact c3 h1 h2' h
  rename_i h3
  rcases c4 h1 h2' h3 with ⟨L, e, -⟩ | ⟨hno, e⟩
  · exact Or.inl ⟨L, e⟩
  · refine Or.inr ⟨?_, e⟩
    by_contra hodd
    exact hno fun _ _ _ => tame_odd hD (by omega) _ _

/-- C23, soundness: every key returned is a valid public key on the same parameters, and the signature verifies with it on the hash, for
all options for which the hash has the right length and the signature is not rejected for being high-s. -/
theorem C23_sound (keys : List PublicKey) (hok : recoverWithOptions m w sig hash id o = .ok keys) (pk : PublicKey) (hpk : pk ∈ keys)
    (vo : VerifyingOptions) (hv1 : vo.enforceLowS = true → s ≤ n / 2)
    (hv2 : vo.strictHashByteLength = true → bitLength n % 8 = 0 ∧ hash.length * 8 = bitLength n) :
    pk.params = cp ∧ (PublicKey.new m w pk.data cp : Out ε _) = .ok (some pk) ∧ verifyWithOptions m w hash sig pk vo = .ok true := by
  classical
  obtain ⟨c1, c2, c3, c4⟩ := recoverWithOptions_s m hD hcof hp hr hs hr0 hrn hs0 hsn hash id o h8
  by_cases h1 : hash = []
  · rw [c1 h1] at hok; cases hok
  by_cases h2 : o.strictHashByteLength = true → hash.length * 8 = bitLength n
  swap
  · simp only [Classical.not_imp] at h2
    rw [c2 h1 h2.1 h2.2] at hok; cases hok
  by_cases h3 : leadingBits (bitLength n) hash = 0
  · rw [c3 h1 h2 h3] at hok; cases hok
  obtain ⟨L, e, Rs, hL, -, -⟩ := (c4 h1 h2 h3).resolve_right fun h => by rw [h.2] at hok; cases hok
  rw [e] at hok
  cases hok
  obtain ⟨i, hi, rfl⟩ := List.mem_iff_getElem.mp hpk
  have hi' := hi
  rw [hL.length_eq] at hi'
  have hk := (List.forall₂_iff_get.mp hL).2 i hi hi'
  simp only [List.get_eq_getElem] at hk
  have hg := List.of_mem_filter (List.getElem_mem hi')
  rw [decide_eq_true_iff] at hg
  generalize hQ : (List.filter _ _)[i] = Q at hk hg
  refine ⟨hk.1, ?_, ?_⟩
  · obtain ⟨hx, hy⟩ := point_x hk.2
    obtain ⟨op, e2, ho⟩ := publicKeyNew_z (ε := ε) m hD hx hy (clear_sub hD hk.2 hg.2.1)
    rcases ho with ⟨-, rfl⟩ | ⟨hno, -⟩
    · rw [e2, ← hk.1]
    · exact absurd ⟨_, hk.2, hg.1, hg.2.1⟩ hno
  · obtain ⟨v, ev, hv⟩ := (verifyWithOptions_eq m hD hk.1 hk.2 hg.2.1 hp hr hs hr0 hs0 hsn hash vo (fun h => (hv2 h).1)).2.2.2.2 h1 hv1
      (fun h => (hv2 h).2) h3
    rw [ev, hv.mpr hg.2.2]

/-- C23, completeness: recovery finds every valid public key with which the signature verifies (and which the recovery id describes, if one
is given), when the cofactor says correctly how often the order fits into the field, and is odd; if it is even, when recovery returns. -/
theorem C23_complete (hodd : cp.cofactor % 2 = 1 ∨ recoverWithOptions m w sig hash id o ≠ .panic) (hpn : p ≤ (cp.cofactor + 1) * n) (hne : hash ≠ [])
    (hlen : o.strictHashByteLength = true → hash.length * 8 = bitLength n) (hz : leadingBits (bitLength n) hash ≠ 0)
    (Q : (curve (a : ZMod p) (b : ZMod p)).Point) (hQ0 : Q ≠ 0) (hQn : n • Q = 0)
    (hver : EcdsaVerifies n G Q (leadingBits (bitLength n) hash) r s)
    (hid : ∀ i, id = some i → IdDescribes n G Q (leadingBits (bitLength n) hash) r s i) :
    ∃ keys, recoverWithOptions m w sig hash id o = .ok keys ∧ ∃ pk ∈ keys, pk.params = cp ∧ PointDenotes w pk.data Q := by
  classical
  have hnp : Fact n.Prime := ⟨hD.n_prime⟩
  obtain ⟨L, e, Rs, hL, -, hmem⟩ :=
    ((recoverWithOptions_s m hD hcof hp hr hs hr0 hrn hs0 hsn hash id o h8).2.2.2 hne hlen hz).resolve_right fun h =>
      hodd.elim (fun h' => h.1 fun _ _ _ => tame_odd hD h' _ _) fun h' => h' h.2
  refine ⟨L, e, ?_⟩
  have hR : verPoint n G (leadingBits (bitLength n) hash) r s Q ∈ Rs := by
    rw [hmem, bounds_iff hD hpn hrn]
    exact ⟨hver.1, ⟨hver.2, fun i hi => (hid i hi).1⟩, fun i hi => (hid i hi).2⟩
  have hc := cand_verPoint hD.G_order hQn (e := leadingBits (bitLength n) hash) (cast_ne_zero_of_lt hr0 hrn) (cast_ne_zero_of_lt hs0 hsn)
  have hin := List.mem_filter (p := fun Q => decide (Good n G (leadingBits (bitLength n) hash) r s Q)) |>.mpr ⟨List.mem_map.mpr ⟨_, hR, hc⟩, decide_eq_true (p := Good n G (leadingBits (bitLength n) hash) r s Q)
    ⟨hQ0, hQn, hver⟩⟩
  obtain ⟨i, hi, hQi⟩ := List.mem_iff_getElem.mp hin
  have hi' : i < L.length := by rw [hL.length_eq]; exact hi
  have hk := (List.forall₂_iff_get.mp hL).2 i hi' hi
  simp only [List.get_eq_getElem] at hk
  rw [hQi] at hk
  exact ⟨_, List.getElem_mem hi', hk.1, hk.2⟩

/-- C23, for curves of prime order: the keys returned are exactly the valid public keys with which the signature verifies (and which the
recovery id describes, if one is given), each once. -/
theorem C23_exact (hcof1 : cp.cofactor = 1) (hpn : p ≤ 2 * n) (hne : hash ≠ [])
    (hlen : o.strictHashByteLength = true → hash.length * 8 = bitLength n) (hz : leadingBits (bitLength n) hash ≠ 0) :
    ∃ keys, recoverWithOptions m w sig hash id o = .ok keys ∧ ∃ Qs : List (curve (a : ZMod p) (b : ZMod p)).Point,
      List.Forall₂ (fun pk Q => pk.params = cp ∧ PointDenotes w pk.data Q) keys Qs ∧ Qs.Nodup ∧
      ∀ Q, Q ∈ Qs ↔ Q ≠ 0 ∧ EcdsaVerifies n G Q (leadingBits (bitLength n) hash) r s ∧
        ∀ i, id = some i → IdDescribes n G Q (leadingBits (bitLength n) hash) r s i := by
  classical
  have hnp : Fact n.Prime := ⟨hD.n_prime⟩
  have hall : ∀ P : (curve (a : ZMod p) (b : ZMod p)).Point, n • P = 0 := by
    intro P
    have := hD.card_smul P
    rwa [hcof1, Nat.one_mul] at this
  have hodd : cp.cofactor % 2 = 1 := by rw [hcof1]
  have hrz := cast_ne_zero_of_lt hr0 hrn
  have hsz := cast_ne_zero_of_lt hs0 hsn
  obtain ⟨L, e, Rs, hL, hnd, hmem⟩ :=
    (recoverWithOptions_eq m hD hcof hp hr hs hr0 hrn hs0 hsn hash id o h8 (fun _ _ _ => tame_odd hD hodd _ _)).2.2.2 hne hlen hz
  refine ⟨L, e, _, hL, ?_, fun Q => ?_⟩
  · apply List.Nodup.filter
    refine List.Nodup.map_on (fun A _ B _ hAB => ?_) hnd
    rw [← verPoint_cand hD.G_order (hall A) hrz hsz, hAB, verPoint_cand hD.G_order (hall B) hrz hsz]
  · rw [List.mem_filter, List.mem_map, decide_eq_true_iff]
    constructor
    · rintro ⟨⟨R, hR, rfl⟩, h0, -, hver⟩
      refine ⟨h0, hver, fun i hi => ?_⟩
      rw [hmem, bounds_iff hD (by rw [hcof1]; exact hpn) hrn] at hR
      have hv := verPoint_cand hD.G_order (hall R) (e := leadingBits (bitLength n) hash) hrz hsz
      unfold verPoint at hv
      unfold IdDescribes
      rw [hv]
      exact ⟨hR.2.1.2 i hi, hR.2.2 i hi⟩
    · rintro ⟨h0, hver, hid⟩
      refine ⟨⟨verPoint n G (leadingBits (bitLength n) hash) r s Q, ?_,
        cand_verPoint hD.G_order (hall Q) hrz hsz⟩, h0, hall Q, hver⟩
      rw [hmem, bounds_iff hD (by rw [hcof1]; exact hpn) hrn]
      exact ⟨hver.1, ⟨hver.2, fun i hi => (hid i hi).1⟩, fun i hi => (hid i hi).2⟩

/-- C23, for curves of prime order: if the signature verifies with the public key `Q`, and the recovery id describes the point that this
verification computes, then recovery with this id returns exactly `Q`. -/
theorem C23_unique (hcof1 : cp.cofactor = 1) (hpn : p ≤ 2 * n) (hne : hash ≠ [])
    (hlen : o.strictHashByteLength = true → hash.length * 8 = bitLength n) (hz : leadingBits (bitLength n) hash ≠ 0)
    (Q : (curve (a : ZMod p) (b : ZMod p)).Point) (hQ0 : Q ≠ 0) (hver : EcdsaVerifies n G Q (leadingBits (bitLength n) hash) r s)
    (i : RecoveryId) (hi : id = some i) (hid : IdDescribes n G Q (leadingBits (bitLength n) hash) r s i) :
    ∃ pk, recoverWithOptions m w sig hash id o = .ok [pk] ∧ pk.params = cp ∧ PointDenotes w pk.data Q := by
  have hnp : Fact n.Prime := ⟨hD.n_prime⟩
  obtain ⟨keys, e, Qs, hf, hnd, hmem⟩ :=
    C23_exact m w cp p n a b G hD hcof sig hp r s hr0 hrn hs0 hsn hr hs hash id o h8 hcof1 hpn hne hlen hz
  have hall : ∀ P : (curve (a : ZMod p) (b : ZMod p)).Point, n • P = 0 := by
    intro P
    have := hD.card_smul P
    rwa [hcof1, Nat.one_mul] at this
  have hQs : Qs = [Q] := by
    have hin : Q ∈ Qs := by
      rw [hmem]
      refine ⟨hQ0, hver, fun j hj => ?_⟩
      rw [hi] at hj
      cases hj
      exact hid
    have hu : ∀ A ∈ Qs, A = Q := by
      intro A hA
      rw [hmem] at hA
      exact signer_unique hD hpn (hall _) (hall _) (cast_ne_zero_of_lt hr0 hrn) (cast_ne_zero_of_lt hs0 hsn) hA.2.1 hver
        (hA.2.2 i hi) hid
    cases Qs with
    | nil => simp at hin
    | cons A rest =>
      cases rest with
      | nil => rw [hu A (by simp)]
      | cons B _ =>
        exfalso
        have := (List.nodup_cons.mp hnd).1
        rw [hu A (by simp)] at this
        rw [hu B (by simp)] at this
        simp at this
  rw [hQs] at hf
  cases hf with
  | cons hk hnil =>
    cases hnil
    exact ⟨_, e, hk.1, hk.2⟩

end

section
variable (m : Build) (w : Nat) [DigitWidth w] (cp : Params) (p n : Nat) [hpr : Fact p.Prime] (a b : Int)
  (G : (curve (a : ZMod p) (b : ZMod p)).Point) (hD : Domain w cp p n a b G) (hcof : cp.cofactor < 2 ^ 32)
  (H : Hasher) (h : List UInt8 → List UInt8) (limit : Nat) (hc : Computes H h limit) (ho : H.outLen ≤ H.blockLen)
  (ho0 : 0 < H.outLen) (d : Nat) (hd0 : 0 < d) (hdn : d < n) (key : PrivateKey) (hkey : key.params = cp) (hd : Denotes w key.data d)
  (hash : List UInt8) (o : SigningOptions) (h8 : o.strictHashByteLength = true → bitLength n % 8 = 0)
  (rand : Nat → Out RandomError (List UInt8))
  (hl : ∀ i bytes, Drawn o.employExtraRandomData (rand i) bytes →
    H.blockLen + H.outLen + 1 + 2 * ((bitLength n + 7) / 8) + bytes.length < limit)
  (hz : leadingBits (bitLength n) hash ≠ 0)
include hD hcof hc ho ho0 hd0 hdn hkey hd hl h8 hz

omit hcof hz in
/-- What the theorems below need to know about a signature that was produced. -/
theorem signed (f nf : Nat) (st : H.State) (sig : Signature) (id : RecoveryId)
    (hok : signWithOptions m w H f nf st rand hash key o = .ok (sig, id)) :
    hash ≠ [] ∧ ∃ r s : Nat, sig.params = cp ∧ Denotes w sig.r r ∧ Denotes w sig.s s ∧ 0 < r ∧ r < n ∧ 0 < s ∧ s < n ∧
      (o.enforceLowS = true → s ≤ n / 2) ∧ EcdsaVerifies n G (d • G) (leadingBits (bitLength n) hash) r s ∧ IdDescribes n G (d • G) (leadingBits (bitLength n) hash) r s id := by
  have hnp : Fact n.Prime := ⟨hD.n_prime⟩
  obtain ⟨hne, -, -, j, k, -, hk0, hkn, hus, ⟨hp, hr, hs, hi⟩, -⟩ :=
    sign_ok m w cp p n a b G hD H h limit hc ho ho0 d hd0 hdn key hkey hd hash o h8 rand hl f nf st sig id hok
  simp only at hp hr hs hi
  unfold Unusable at hus
  rw [not_or] at hus
  have hslt : ecdsaS n G d (leadingBits (bitLength n) hash) k < n := ZMod.val_lt _
  have hrlt : ecdsaR n G k < n := Nat.mod_lt _ hD.n_prime.pos
  have hver := sign_verifies hD.G_ne hD.G_order (d := d) (e := leadingBits (bitLength n) hash) (cast_ne_zero_of_lt hk0 hkn) hus.2
  have hn1 := hD.n_prime.one_lt
  refine ⟨hne, _, _, hp, hr, hs, by omega, hrlt, ?_, ?_, ?_, ?_, hi⟩
  · unfold lowered; split <;> omega
  · unfold lowered; split <;> omega
  · intro hlow
    have hodd := hD.n_odd
    unfold lowered
    split
    · omega
    · rename_i hc
      by_contra hcon
      exact hc ⟨hlow, hcon⟩
  · unfold lowered
    split
    · rw [verifies_neg hD.G_order (smul_smul_zero hD.G_order d) (Nat.le_of_lt hslt)]
      exact hver
    · exact hver

/-- C23: if a signature was produced from a hash that is not zero with the key `d`, recovery from it with the same hash, and with the
recovery id that was produced, returns exactly the signer's public key.  This is for curves of prime order; what happens on the other curves
is in `Verif.Props.Cofactor`. -/
theorem C23_signer_partial (hcof1 : cp.cofactor = 1) (hpn : p ≤ 2 * n) (f nf : Nat) (st : H.State) (sig : Signature) (id : RecoveryId)
    (hok : signWithOptions m w H f nf st rand hash key o = .ok (sig, id)) (ro : RecoveryOptions)
    (hlen : ro.strictHashByteLength = true → hash.length * 8 = bitLength n) :
    ∃ pk, recoverWithOptions m w sig hash (some id) ro = .ok [pk] ∧ pk.params = cp ∧ PointDenotes w pk.data (d • G) := by
  have hnp : Fact n.Prime := ⟨hD.n_prime⟩
  obtain ⟨hne, r, s, hp, hr, hs, hr0, hrn, hs0, hsn, -, hver, hid⟩ :=
    signed m w cp p n a b G hD H h limit hc ho ho0 d hd0 hdn key hkey hd hash o h8 rand hl f nf st sig id hok
  exact C23_unique m w cp p n a b G hD hcof sig hp r s hr0 hrn hs0 hsn hr hs hash (some id) ro (fun hs => by have := hlen hs; omega) hcof1 hpn hne hlen hz _
    (smul_ne_zero' hD.G_ne hD.G_order (cast_ne_zero_of_lt hd0 hdn)) hver id rfl hid

/-- C23: recovery without a recovery id returns a list that contains the signer's public key, if the cofactor is odd. -/
theorem C23_signer_without_id (hodd : cp.cofactor % 2 = 1) (hpn : p ≤ (cp.cofactor + 1) * n) (f nf : Nat) (st : H.State) (sig : Signature) (id : RecoveryId)
    (hok : signWithOptions m w H f nf st rand hash key o = .ok (sig, id)) (ro : RecoveryOptions)
    (hlen : ro.strictHashByteLength = true → hash.length * 8 = bitLength n) :
    ∃ keys, recoverWithOptions m w sig hash none ro = .ok keys ∧ ∃ pk ∈ keys, pk.params = cp ∧ PointDenotes w pk.data (d • G) := by
  have hnp : Fact n.Prime := ⟨hD.n_prime⟩
  obtain ⟨hne, r, s, hp, hr, hs, hr0, hrn, hs0, hsn, -, hver, hid⟩ :=
    signed m w cp p n a b G hD H h limit hc ho ho0 d hd0 hdn key hkey hd hash o h8 rand hl f nf st sig id hok
  exact C23_complete m w cp p n a b G hD hcof sig hp r s hr0 hrn hs0 hsn hr hs hash none ro (fun hs => by have := hlen hs; omega) (Or.inl hodd) hpn hne hlen hz _
    (smul_ne_zero' hD.G_ne hD.G_order (cast_ne_zero_of_lt hd0 hdn)) (smul_smul_zero hD.G_order d) hver (fun _ h => by cases h)

end

/-- C23 on the built-in curve: `recover_public_keys_from_signature`, given the produced recovery id, returns exactly the signer's key. -/
theorem C23_signer_secp256k1 (m : Build) (w : Nat) [DigitWidth w] (H : Hasher) (h : List UInt8 → List UInt8) (limit : Nat)
    (hc : Computes H h limit) (ho : H.outLen ≤ H.blockLen) (ho0 : 0 < H.outLen) (hl : H.blockLen + H.outLen + 97 < limit) :
    ∃ cp, (secp256k1 w : Out ε _) = .ok cp ∧ ∀ (d : Nat) (key : PrivateKey) (hash : List UInt8) (o : SigningOptions)
      (rand : Nat → Out RandomError (List UInt8)) (f nf : Nat) (st : H.State) (sig : Signature) (id : RecoveryId),
      0 < d → d < Secp256k1.n → key.params = cp → Denotes w key.data d → hash.length = 32 → ofBE hash ≠ 0 →
      (∀ i bytes, rand i = .ok bytes → bytes.length = 32) →
      signWithOptions m w H f nf st rand hash key o = .ok (sig, id) →
      ∃ pk pk', (key.publicKey m w : Out ε _) = .ok pk ∧ recover m w sig hash (some id) = .ok [pk'] ∧ pk'.params = pk.params ∧
        toInt w pk'.data.x = toInt w pk.data.x ∧ toInt w pk'.data.y = toInt w pk.data.y := by
  haveI : Fact (Nat.Prime Secp256k1.p) := ⟨LCT.Secp256k1.prime_p⟩
  haveI : Fact (Nat.Prime Secp256k1.n) := ⟨LCT.Secp256k1.prime_n⟩
  obtain ⟨cp, e, hD, hcof⟩ := secp256k1_y (ε := ε) w
  have hbl : bitLength Secp256k1.n = 256 := by decide +kernel
  refine ⟨cp, e, fun d key hash o rand f nf st sig id hd0 hdn hkey hd hlen hz hrand hok => ?_⟩
  have hlead : leadingBits (bitLength Secp256k1.n) hash = ofBE hash := by
    unfold leadingBits
    rw [hbl, hlen, show 32 * 8 - 256 = 0 from rfl, Nat.pow_zero, Nat.div_one]
  obtain ⟨pk', e1, hp, hq⟩ := C23_signer_partial m w cp Secp256k1.p Secp256k1.n 0 7 LCT.Secp256k1.G hD (by rw [hcof]; decide) H h limit hc ho ho0
    d hd0 hdn key hkey hd hash o (fun _ => by rw [hbl]) rand (by
      intro i bytes hb
      unfold Drawn at hb
      rw [hbl]
      have : bytes.length ≤ 32 := by
        split at hb
        · rw [hrand i bytes hb]
        · rw [hb]; exact Nat.zero_le _
      omega) (by rw [hlead]; exact hz) hcof (by decide) f nf st sig id hok .default (fun _ => by rw [hlen, hbl])
  obtain ⟨pk, e2, hp2, hq2⟩ := publicKey_y (ε := ε) m hD hkey hd (cast_ne_zero_of_lt hd0 hdn)
  obtain ⟨hx, hy⟩ := point_x hq
  obtain ⟨hx2, hy2⟩ := point_x hq2
  exact ⟨pk, pk', e2, e1, hp.trans hp2.symm, hx.2.trans hx2.2.symm, hy.2.trans hy2.2.symm⟩

/-! ## Examples

On the example curve, with 8-bit digits: the secret 7 has the public point `(44, 104)`; the signature of the hash `[100]` with the nonce 35 is
`(2, 183)`, from the point `(235, 232)`, whose abscissa is not below the order `233`. -/

example : (signWithOptions .debug 8 (constHasher 35) 1 1 () (fun _ => .panic) [100] ⟨Toy.byte 7, Toy.params⟩ (exampleOptions false)).bind
    (fun o => .ok (toInt 8 o.1.r, toInt 8 o.1.s, o.2)) = .ok (2, 183, .HighXEvenY) := by decide +kernel

/-- The coordinates of the keys recovered from `(r, s)` and the hash `[100]`. -/
def exampleRecovered (r s : Nat) (id : Option RecoveryId) : Out RecoveryError (List (Int × Int)) :=
  (recover .debug 8 ⟨Toy.byte r, Toy.byte s, Toy.params⟩ [100] id).bind fun keys =>
    .ok (keys.map fun k => (toInt 8 k.data.x, toInt 8 k.data.y))

example : exampleRecovered 2 183 (some .HighXEvenY) = .ok [(44, 104)] := by decide +kernel
example : exampleRecovered 2 183 (some .LowXOddY) = .ok [] := by decide +kernel

/-- The hypotheses of the theorems on the signer are met. -/
example : Toy.params.cofactor = 1 ∧ Toy.params.cofactor < 2 ^ 32 ∧ 251 ≤ 2 * 233 ∧ bitLength 233 % 8 = 0 ∧
    leadingBits (bitLength 233) [100] ≠ 0 ∧ Domain 8 Toy.params 251 233 4 3 Toy.G ∧ Computes (constHasher 35) (fun _ => [35]) 1000 :=
  ⟨rfl, by decide, by decide, by decide +kernel, by decide +kernel, Toy.domain, constHasher_computes _ _⟩

end LCT.Props
