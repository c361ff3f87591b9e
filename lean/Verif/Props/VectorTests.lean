import Verif.Lemmas.Hash.Sponge
import Verif.Lemmas.VectorTests
import Verif.Lemmas.Crypto.Secp256k1Params
import Verif.Props.Sha2

/-!
# C92: the tests with published vectors pass exactly for right vectors

The test programs are in `Verif.Model.VectorTests`; what vectors claim is in `Verif.Spec.VectorTests`.
-/

namespace LCT.Props
open LCT.BigInt LCT.Spec LCT.Out LCT.Modular LCT.Curve LCT.Crypto LCT.Hash LCT.VectorTests

section Ecdsa
variable (m : Build) (w : Nat) [DigitWidth w] (cp : Params) (p n : Nat) [Fact p.Prime] (a b : Int)
  (G : (curve (a : ZMod p) (b : ZMod p)).Point) (hD : Domain w cp p n a b G) (H : Hasher) (h : List UInt8 → List UInt8) (limit : Nat)
  (hc : Computes H h limit)
include hD hc

/-- C92: for any valid domain parameters, hash function and file of signature vectors (whose public keys are uncompressed points of the group and
whose messages are hex texts), the test passes exactly if every label is right: `valid` if textbook ECDSA accepts the signature, `invalid` if it does not
or if the text is not that of a signature, `acceptable` only for such a text.  Otherwise an assertion fails. -/
theorem C92_ecdsa (Q : EcdsaGroup → (curve (a : ZMod p) (b : ZMod p)).Point) (msg : EcdsaVector → List UInt8) (gs : List EcdsaGroup)
    (hk : ∀ g ∈ gs, Q g ≠ 0 ∧ n • Q g = 0 ∧ IsUncompressed n g.key (Q g))
    (hm : ∀ g ∈ gs, ∀ v ∈ g.tests, lower v.msg = hexOf (msg v) ∧ (msg v).length < limit) (st : H.State) :
    ((∃ st', ecdsaFile m w H cp st gs = .ok st') ↔ ∀ g ∈ gs, ∀ v ∈ g.tests, EcdsaClaim n h G (Q g) (msg v) v.sig v.result) ∧
    ((¬ ∀ g ∈ gs, ∀ v ∈ g.tests, EcdsaClaim n h G (Q g) (msg v) v.sig v.result) ↔ ecdsaFile m w H cp st gs = .panic) := by
  obtain ⟨h1, h2⟩ := ecdsaFile_decides (m := m) hD hc Q msg gs hk hm st
  refine ⟨⟨fun ⟨st', e⟩ => ?_, h1⟩, ⟨h2, fun e hall => ?_⟩⟩
  · by_contra hn
    rw [h2 hn] at e
    cases e
  · obtain ⟨st', e'⟩ := h1 hall
    rw [e'] at e
    cases e

/-- C92: so the outcome does not depend on the state in which the hasher was left, on the build or on the width of digits. -/
theorem C92_ecdsa_history (m' : Build) (w' : Nat) [DigitWidth w'] (cp' : Params) (hD' : Domain w' cp' p n a b G) (gs : List EcdsaGroup)
    (hk : ∀ g ∈ gs, ∃ Q : (curve (a : ZMod p) (b : ZMod p)).Point, Q ≠ 0 ∧ n • Q = 0 ∧ IsUncompressed n g.key Q)
    (hm : ∀ g ∈ gs, ∀ v ∈ g.tests, ∃ msg, lower v.msg = hexOf msg ∧ msg.length < limit) (st st' : H.State) :
    (∃ s, ecdsaFile m w H cp st gs = .ok s) ↔ ∃ s, ecdsaFile m' w' H cp' st' gs = .ok s := by
  classical
  let Q : EcdsaGroup → (curve (a : ZMod p) (b : ZMod p)).Point :=
    fun g => if h : ∃ Q : (curve (a : ZMod p) (b : ZMod p)).Point, Q ≠ 0 ∧ n • Q = 0 ∧ IsUncompressed n g.key Q then h.choose else 0
  let msg : EcdsaVector → List UInt8 := fun v => if h : ∃ msg, lower v.msg = hexOf msg ∧ msg.length < limit then h.choose else []
  have hk' : ∀ g ∈ gs, Q g ≠ 0 ∧ n • Q g = 0 ∧ IsUncompressed n g.key (Q g) := by
    intro g hg
    have hx := hk g hg
    simp only [Q, dif_pos hx]
    exact hx.choose_spec
  have hm' : ∀ g ∈ gs, ∀ v ∈ g.tests, lower v.msg = hexOf (msg v) ∧ (msg v).length < limit := by
    intro g hg v hv
    have hx := hm g hg v hv
    simp only [msg, dif_pos hx]
    exact hx.choose_spec
  exact (C92_ecdsa m w cp p n a b G hD H h limit hc Q msg gs hk' hm' st).1.trans
    (C92_ecdsa m' w' cp' p n a b G hD' H h limit hc Q msg gs hk' hm' st').1.symm

end Ecdsa

/-- A file with one group and three vectors meets the hypotheses, and its labels are right: a signature by the key one with the nonce one of the
message `abc`, and a text that is too short.  With other labels the test fails. -/
example (m : Build) (w : Nat) [DigitWidth w] (st : Sha2.Sha256.State) : ∃ cp, (secp256k1 w : Out Unit _) = .ok cp ∧
    let key := uncompressedText Secp256k1.n LCT.Secp256k1.G
    let text := hexOf [97, 98, 99]
    let e := 0xba7816bf8f01cfea414140de5dae2223b00361a396177a9cb410ff61f20015ad
    let r := Secp256k1.gx % Secp256k1.n
    let sig := p1363Text Secp256k1.n r ((e + r) % Secp256k1.n)
    (∃ st', ecdsaFile m w Sha2.Sha256 cp st [⟨key, [⟨text, sig, .valid⟩, ⟨text, [48, 48], .invalid⟩, ⟨text, [48, 48], .acceptable⟩]⟩] = .ok st') ∧
    ecdsaFile m w Sha2.Sha256 cp st [⟨key, [⟨text, sig, .invalid⟩]⟩] = .panic ∧
    ecdsaFile m w Sha2.Sha256 cp st [⟨key, [⟨text, sig, .acceptable⟩]⟩] = .panic ∧
    ecdsaFile m w Sha2.Sha256 cp st [⟨key, [⟨text, [48, 48], .valid⟩]⟩] = .panic := by
  obtain ⟨cp, ecp, hD, -⟩ := secp256k1_y (ε := Unit) w
  refine ⟨cp, ecp, ?_⟩
  intro key text e r sig
  haveI : Fact Secp256k1.n.Prime := ⟨hD.n_prime⟩
  have hbits : bitLength Secp256k1.n = 256 := by decide +kernel
  have he : e ≠ 0 := by decide +kernel
  have hr : 0 < r ∧ r < Secp256k1.n := by decide +kernel
  have hs : 0 < (e + r) % Secp256k1.n ∧ (e + r) % Secp256k1.n < Secp256k1.n := by decide +kernel
  have hlow : lower sig = sig := by
    show List.map lowerChar (p1363Text _ _ _) = p1363Text _ _ _
    unfold p1363Text fixedHex
    rw [List.map_append, lower_hexOf, lower_hexOf]
  have hR : ecdsaR Secp256k1.n LCT.Secp256k1.G 1 = r := by
    unfold ecdsaR
    rw [one_smul]
    show ((Secp256k1.gx : Nat) : ZMod Secp256k1.p).val % _ = _
    rw [ZMod.val_cast_of_lt (by decide)]
  have hS : ecdsaS Secp256k1.n LCT.Secp256k1.G 1 e 1 = (e + r) % Secp256k1.n := by
    unfold ecdsaS
    rw [hR]
    simp only [Nat.cast_one, mul_one, inv_one]
    rw [← Nat.cast_add, ZMod.val_natCast]
  have hst : SignatureText Secp256k1.n sig r ((e + r) % Secp256k1.n) := ⟨hr.1, hr.2, hs.1, hs.2, hlow⟩
  have hacc : Accepted Secp256k1.n Spec.Sha2.sha256 LCT.Secp256k1.G LCT.Secp256k1.G [97, 98, 99] sig := by
    refine ⟨_, _, hst, ?_⟩
    rw [hbits, sha256_abc, show leadingBits 256 _ = e from by decide +kernel]
    refine ⟨he, ?_⟩
    have := sign_verifies LCT.Secp256k1.G_ne_zero LCT.Secp256k1.n_mul_G (d := 1) (e := e) (k := 1) (by simp) (by rw [hS]; omega)
    rw [hR, hS, one_smul] at this
    exact this
  have hno : ¬ ∃ r s, SignatureText Secp256k1.n [48, 48] r s := by
    rintro ⟨r, s, -, -, -, -, ht⟩
    have := congrArg List.length ht
    unfold p1363Text lower byteLength at this
    rw [hbits, List.length_map, List.length_append, fixedHex_length, fixedHex_length] at this
    simp at this
  have hlowk : lower key = key := by
    show List.map lowerChar (uncompressedText _ _) = uncompressedText _ _
    unfold uncompressedText fixedHex
    rw [List.map_append, List.map_append, lower_hexOf, lower_hexOf]
    rfl
  have hkey : IsUncompressed Secp256k1.n key LCT.Secp256k1.G := by
    refine ⟨?_, ?_, hlowk⟩
    · show ((Secp256k1.gx : Nat) : ZMod Secp256k1.p).val < _
      rw [ZMod.val_cast_of_lt (by decide)]
      decide +kernel
    · show ((Secp256k1.gy : Nat) : ZMod Secp256k1.p).val < _
      rw [ZMod.val_cast_of_lt (by decide)]
      decide +kernel
  have hfile := fun (vs : List EcdsaVector) (hv : ∀ v ∈ vs, v.msg = text) =>
    C92_ecdsa m w cp _ _ _ _ _ hD Sha2.Sha256 _ _ Hash.Sha2.computes256 (fun _ => LCT.Secp256k1.G) (fun _ => [97, 98, 99]) [⟨key, vs⟩]
      (by
        intro g hg
        cases List.mem_singleton.mp hg
        exact ⟨LCT.Secp256k1.G_ne_zero, LCT.Secp256k1.n_mul_G, hkey⟩)
      (by
        intro g hg v hv'
        cases List.mem_singleton.mp hg
        exact ⟨by rw [hv v hv']; exact lower_hexOf _, by decide⟩) st
  refine ⟨(hfile _ (by simp)).1.mpr ?_, (hfile _ (by simp)).2.mp ?_, (hfile _ (by simp)).2.mp ?_, (hfile _ (by simp)).2.mp ?_⟩
  · simp only [List.forall_mem_singleton, List.forall_mem_cons, List.not_mem_nil, false_imp_iff, implies_true, and_true]
    exact ⟨hacc, fun ⟨r, s, hx, _⟩ => hno ⟨r, s, hx⟩, hno⟩
  · simp only [List.forall_mem_singleton]
    exact fun hx => hx hacc
  · simp only [List.forall_mem_singleton]
    exact fun hx => hx ⟨_, _, hst⟩
  · simp only [List.forall_mem_singleton]
    exact fun ⟨r, s, hx, _⟩ => hno ⟨r, s, hx⟩

/-- C92: for any hash function and file of HMAC vectors (whose keys and messages are hex texts), the test passes exactly if no tag is longer than
the code and every label is right: `valid` for the beginning of the code in lower case, `invalid` for any other text.  Otherwise the test fails. -/
theorem C92_hmac (m : Build) (H : Hasher) (h : List UInt8 → List UInt8) (limit : Nat) (hc : Computes H h limit) (ho : H.outLen ≤ H.blockLen)
    (hb : H.blockLen + H.outLen < limit) (key msg : HmacVector → List UInt8) (gs : List HmacGroup)
    (hv : ∀ g ∈ gs, ∀ v ∈ g.tests, lower v.key = hexOf (key v) ∧ lower v.msg = hexOf (msg v) ∧ (key v).length < limit ∧
      H.blockLen + (msg v).length < limit) (st : H.State) :
    ((∃ st', hmacFile m H st gs = .ok st') ↔
      ∀ g ∈ gs, ∀ v ∈ g.tests, g.tagSize / 8 ≤ H.outLen ∧ HmacClaim h H.blockLen g.tagSize (key v) (msg v) v.tag v.result) ∧
    ((¬ ∀ g ∈ gs, ∀ v ∈ g.tests, g.tagSize / 8 ≤ H.outLen ∧ HmacClaim h H.blockLen g.tagSize (key v) (msg v) v.tag v.result) ↔
      hmacFile m H st gs = .panic) := by
  obtain ⟨h1, h2⟩ := hmacFile_decides (m := m) hc ho hb key msg gs hv st
  refine ⟨⟨fun ⟨st', e⟩ => ?_, h1⟩, ⟨h2, fun e hall => ?_⟩⟩
  · by_contra hn
    rw [h2 hn] at e
    cases e
  · obtain ⟨st', e'⟩ := h1 hall
    rw [e'] at e
    cases e

/-- Tags of the empty message with the empty key: the whole code, half of it, and a text that is not its beginning; the code in upper case is
not accepted as `valid`. -/
example (m : Build) (st : Sha2.Sha256.State) :
    let tag := Spec.hmac Spec.Sha2.sha256 64 [] []
    (∃ st', hmacFile m Sha2.Sha256 st [⟨256, [⟨[], [], hexOf tag, .valid⟩, ⟨[], [], [], .invalid⟩]⟩,
      ⟨128, [⟨[], [], hexOf (tag.take 16), .valid⟩, ⟨[], [], hexOf tag, .invalid⟩]⟩] = .ok st') ∧
    hmacFile m Sha2.Sha256 st [⟨256, [⟨[], [], [], .valid⟩]⟩] = .panic ∧ hmacFile m Sha2.Sha256 st [⟨512, [⟨[], [], [], .invalid⟩]⟩] = .panic := by
  intro tag
  have hlen : tag.length = 32 := hmac_length (H := Sha2.Sha256) Hash.Sha2.computes256 _ _
  have hne : hexOf tag ≠ [] := by
    intro e
    have := congrArg List.length e
    rw [Codecs.hexOf_length, hlen] at this
    simp at this
  have hcut : hexOf tag ≠ hexOf (tag.take 16) := by
    intro e
    have := congrArg List.length (Codecs.hexOf_injective e)
    rw [List.length_take, hlen] at this
    simp at this
  have hfile := fun (gs : List HmacGroup) (hv : ∀ g ∈ gs, ∀ v ∈ g.tests, v.key = [] ∧ v.msg = []) =>
    C92_hmac m Sha2.Sha256 _ _ Hash.Sha2.computes256 (by decide) (by decide) (fun _ => []) (fun _ => []) gs
      (fun g hg v hv' => ⟨by rw [(hv g hg v hv').1]; rfl, by rw [(hv g hg v hv').2]; rfl, by decide, by decide⟩) st
  refine ⟨(hfile _ (by simp)).1.mpr ?_, (hfile _ (by simp)).2.mp ?_, (hfile _ (by simp)).2.mp ?_⟩
  · simp only [List.forall_mem_singleton, List.forall_mem_cons, List.not_mem_nil, false_imp_iff, implies_true, and_true]
    refine ⟨⟨⟨by decide, ?_⟩, by decide, ?_⟩, ⟨by decide, ?_⟩, by decide, ?_⟩
    · show _ = hexOf (tag.take 32)
      rw [List.take_of_length_le (by omega)]
    · show _ ≠ hexOf (tag.take 32)
      rw [List.take_of_length_le (by omega)]
      exact hne.symm
    · rfl
    · exact hcut
  · simp only [List.forall_mem_singleton]
    rintro ⟨-, hx⟩
    apply hne
    have : [] = hexOf (tag.take 32) := hx
    rw [this, List.take_of_length_le (by omega)]
  · simp only [List.forall_mem_singleton]
    rintro ⟨hx, -⟩
    revert hx
    decide

/-- C92: for any hash function and file of known answers, the test passes exactly if every entry with a whole number of bytes is right and there
are more than two hundred of them: entries with other lengths, and lines between the entries, are passed over.  Otherwise the test fails. -/
theorem C92_known_answers (m : Build) (H : Hasher) (h : List UInt8 → List UInt8) (limit : Nat) (hc : Computes H h limit)
    (lines : List (List UInt8)) (es : List KatEntry) (hl : KatLines lines es) (hlim : ∀ e ∈ es, decimalValue e.len / 8 < limit) (st : H.State) :
    (katFile m H st lines = .ok () ↔ (∀ e ∈ es, e.Aligned → e.Claim h) ∧ 200 < (es.filter fun e => decide e.Aligned).length) ∧
    (¬ ((∀ e ∈ es, e.Aligned → e.Claim h) ∧ 200 < (es.filter fun e => decide e.Aligned).length) ↔ katFile m H st lines = .panic) := by
  obtain ⟨h1, h2⟩ := katLoop_eq (m := m) hc hl hlim st 0
  rw [← List.countP_eq_length_filter]
  change _ ∧ (¬ (_ ∧ 200 < alignedCount es) ↔ _)
  change (_ ↔ _ ∧ 200 < alignedCount es) ∧ _
  unfold katFile
  by_cases hall : ∀ e ∈ es, e.Aligned → e.Claim h
  · rw [h1 hall, Nat.zero_add, bind_ok, and_iff_right hall]
    by_cases hgt : 200 < alignedCount es
    · rw [decide_eq_true hgt]
      exact ⟨⟨fun _ => hgt, fun _ => rfl⟩, ⟨fun hn => absurd hgt hn, fun e => (by cases e)⟩⟩
    · rw [decide_eq_false hgt]
      exact ⟨⟨fun e => (by cases e), fun hn => absurd hn hgt⟩, ⟨fun _ => rfl, fun _ => hgt⟩⟩
  · rw [h2 hall]
    exact ⟨⟨fun e => (by cases e), fun hn => absurd hn.1 hall⟩, ⟨fun _ => rfl, fun _ hn => hall hn.1⟩⟩

/-- C92: a length that is not a numeral, or too large, makes the test fail, whatever comes after it. -/
theorem C92_known_answers_length (m : Build) (H : Hasher) (before : List (List UInt8)) (hb : ∀ l ∈ before, ¬ [76, 101, 110, 32, 61] <+: l)
    (line value : List UInt8) (hf : IsField [76, 101, 110] value line) (hs : ∀ c ∈ value, ¬ White c ∧ c ≠ 61) (hn : ¬ LengthNumeral value)
    (rest : List (List UInt8)) (st : H.State) : katFile m H st (before ++ line :: rest) = .panic := by
  unfold katFile
  rw [katLoop_length hb hf hs hn]
  rfl

/-- `Len =` without a value. -/
example (m : Build) (st : Sha3.Sha3_256.State) (rest : List (List UInt8)) : katFile m Sha3.Sha3_256 st ([[35]] ++ [76, 101, 110, 32, 61, 9] :: rest) = .panic :=
  C92_known_answers_length m _ [[35]] (by decide) _ [] ⟨[9], [], by simp [White], by simp, rfl⟩ (by simp)
    (fun ⟨ds, h, h0, _⟩ => by rcases h with h | h <;> [exact h0 h.symm; cases h]) rest st

namespace VectorExamples

/-- `Len = 0`, `Msg = 00` and the digest of the empty message, as the published files begin. -/
def empty (md : List UInt8) : KatEntry := ⟨[48], [48, 48], md⟩

/-- The lines of an entry. -/
def lines (e : KatEntry) : List (List UInt8) :=
  [[76, 101, 110, 32, 61, 32] ++ e.len, [77, 115, 103, 32, 61, 32] ++ e.msg, [77, 68, 32, 61, 32] ++ e.md]

theorem katLines (e : KatEntry) (he : e.Proper) (k : Nat) :
    KatLines ((List.replicate k e).flatMap lines ++ [[35, 32, 101, 110, 100]]) (List.replicate k e) := by
  induction k with
  | zero => exact .other (by decide) .nil
  | succ k ih =>
    rw [List.replicate_succ, List.flatMap_cons, List.append_assoc]
    exact .entry he (.inl ⟨[32], [], by simp [White], by simp, by simp⟩) ⟨[32], [], by simp [White], by simp, by simp⟩ ⟨[32], [], by simp [White], by simp, by simp⟩ ih

theorem claim (h : List UInt8 → List UInt8) : (empty (hexOf (h []))).Claim h := by
  have h0 : decimalValue [48] / 8 = 0 := by decide
  refine ⟨[0], show lower [48, 48] = _ by decide, show decimalValue [48] / 8 ≤ 1 by decide, ?_⟩
  show lower (hexOf (h [])) = hexOf (h (List.take (decimalValue [48] / 8) [0]))
  rw [h0]
  exact lower_hexOf _

end VectorExamples

/-- A file with the entry for the empty message 201 times passes; with 200 times, or with a wrong digest, the test fails. -/
example (m : Build) (st : Sha3.Sha3_256.State) :
    let good := VectorExamples.empty (hexOf (Spec.Sha3.sha3 32 []))
    let bad := VectorExamples.empty (hexOf (List.replicate 31 0))
    katFile m Sha3.Sha3_256 st ((List.replicate 201 good).flatMap VectorExamples.lines ++ [[35, 32, 101, 110, 100]]) = .ok () ∧
    katFile m Sha3.Sha3_256 st ((List.replicate 200 good).flatMap VectorExamples.lines ++ [[35, 32, 101, 110, 100]]) = .panic ∧
    katFile m Sha3.Sha3_256 st ((List.replicate 201 bad).flatMap VectorExamples.lines ++ [[35, 32, 101, 110, 100]]) = .panic := by
  intro good bad
  have hpr : ∀ bs, (VectorExamples.empty (hexOf bs)).Proper := fun bs =>
    ⟨show [48] ≠ [] by decide, show ∀ c ∈ [48], (48 : UInt8) ≤ c ∧ c ≤ 57 by decide, show decimalValue [48] < 2 ^ 64 by decide,
      show ∀ c ∈ [48, 48], IsHexDigit c by decide, hexOf_digits bs⟩
  have hal : ∀ bs, (VectorExamples.empty (hexOf bs)).Aligned := fun bs => show decimalValue [48] % 8 = 0 by decide
  have hfile := fun bs k => C92_known_answers m Sha3.Sha3_256 _ 1 (Hash.Sha3.computesSha3_256 1) _ _
    (VectorExamples.katLines (VectorExamples.empty (hexOf bs)) (hpr bs) k) (by
      intro e he
      rw [(List.mem_replicate.mp he).2]
      show decimalValue [48] / 8 < 1
      decide) st
  have hcount : ∀ bs k, ((List.replicate k (VectorExamples.empty (hexOf bs))).filter fun e => decide e.Aligned).length = k := by
    intro bs k
    rw [List.filter_replicate, if_pos (decide_eq_true (hal bs)), List.length_replicate]
  refine ⟨(hfile _ _).1.mpr ?_, (hfile _ _).2.mp ?_, (hfile _ _).2.mp ?_⟩
  · rw [hcount]
    refine ⟨fun e he _ => ?_, by omega⟩
    rw [(List.mem_replicate.mp he).2]
    exact VectorExamples.claim _
  · rw [hcount]
    omega
  · rintro ⟨hx, -⟩
    obtain ⟨bs, h1, -, h3⟩ := hx bad (List.mem_replicate.mpr ⟨by decide, rfl⟩) (hal _)
    have h4 := Codecs.hexOf_injective ((lower_hexOf _).symm.trans h3)
    have := congrArg List.length h4
    rw [(Hash.Sha3.computesSha3_256 1).length] at this
    simp at this
    revert this
    decide

end LCT.Props
