import Verif.Lemmas.Crypto.Encoding
import Verif.Lemmas.Hash.Hmac
import Verif.Props.Codecs
import Verif.Props.Encoding
import Verif.Props.Signing
import Verif.Spec.VectorTests

/-!
# Lemmas about the tests with published vectors
-/

namespace LCT.VectorTests
open LCT.BigInt LCT.Spec LCT.Out LCT.Modular LCT.Curve LCT.Crypto LCT.Hash LCT.Codecs LCT.RandomTests LCT.Props

theorem hexToBytes_of {t bs : List UInt8} (h : lower t = hexOf bs) : hexToBytes t = .ok bs := by
  refine (C17_decode_ok_iff t bs).mpr ⟨?_, ?_, h⟩
  · have := congrArg List.length h
    rw [lower, List.length_map, hexOf_length] at this
    omega
  · intro c hc
    apply lowerChar_hex
    apply hexOf_digits bs
    rw [← h]
    exact List.mem_map_of_mem hc

/-- The run passes if the claim is right, and fails otherwise. -/
def Decides {α : Type} (u : Out Unit α) (P : Prop) : Prop := (P → ∃ a, u = .ok a) ∧ (¬ P → u = .panic)

theorem Decides.rassert {b : Bool} {P : Prop} {α : Type} {a : α} (h : b = true ↔ P) :
    Decides (do LCT.rassert b; return a) P := by
  cases b
  · exact ⟨fun hp => absurd (h.mpr hp) (by decide), fun _ => rfl⟩
  · exact ⟨fun _ => ⟨a, rfl⟩, fun hp => absurd (h.mp rfl) hp⟩

theorem Decides.congr {α : Type} {u : Out Unit α} {P Q : Prop} (h : P ↔ Q) (hu : Decides u P) : Decides u Q :=
  ⟨fun q => hu.1 (h.mpr q), fun q => hu.2 fun p => q (h.mp p)⟩

theorem Decides.bind {α β : Type} {u : Out Unit α} {f : α → Out Unit β} {P Q : Prop} (hu : Decides u P) (hf : P → ∀ a, Decides (f a) Q) :
    Decides (u >>= f) (P ∧ Q) := by
  by_cases hp : P
  · obtain ⟨a, e⟩ := hu.1 hp
    rw [e]
    exact ⟨fun h => (hf hp a).1 h.2, fun h => (hf hp a).2 fun q => h ⟨hp, q⟩⟩
  · rw [hu.2 hp]
    exact ⟨fun h => absurd h.1 hp, fun _ => rfl⟩

section
variable {m : Build} {w : Nat} [DigitWidth w] {cp : Params} {p n : Nat} [Fact p.Prime] {a b : Int}
  {G : (curve (a : ZMod p) (b : ZMod p)).Point} (hD : Domain w cp p n a b G) {H : Hasher} {h : List UInt8 → List UInt8} {limit : Nat}
  (hc : Computes H h limit)
include hD hc

theorem ecdsaTest_decides {pk : PublicKey} (hpk : pk.params = cp) {Q : (curve (a : ZMod p) (b : ZMod p)).Point} (hQ : PointDenotes w pk.data Q)
    (hnQ : n • Q = 0) (st : H.State) (v : EcdsaVector) {msg : List UInt8} (hm : lower v.msg = hexOf msg) (hl : msg.length < limit) :
    Decides (ecdsaTest m w H cp pk st v) (EcdsaClaim n h G Q msg v.sig v.result) := by
  have refuse : (¬ ∃ r s, SignatureText n v.sig r s) → ∀ e, Signature.fromP1363Hex m w v.sig cp = .err e →
      Decides (ecdsaTest m w H cp pk st v) (EcdsaClaim n h G Q msg v.sig v.result) := by
    intro hno e he
    unfold ecdsaTest
    rw [he]
    refine Decides.rassert ?_
    have hna : ¬ Accepted n h G Q msg v.sig := fun ⟨r, s, hs, _⟩ => hno ⟨r, s, hs⟩
    cases hres : v.result
    · exact ⟨fun h => (by cases h), fun h => absurd h hna⟩
    · exact ⟨fun _ => hna, fun _ => rfl⟩
    · exact ⟨fun _ => hno, fun _ => rfl⟩
    · exact ⟨fun h => (by cases h), fun h => h.elim⟩
  have hn0 := hD.n_prime.pos
  rcases fromP1363Hex_cases m hD.order hn0 v.sig with ⟨hlen, e⟩ | ⟨-, ⟨c, hcm, hch⟩, e⟩ | ⟨r, s, hr, hs, ht, -, hrest⟩
  · refine refuse ?_ _ e
    rintro ⟨r, s, -, -, -, -, ht⟩
    apply hlen
    have := congrArg List.length ht
    unfold p1363Text lower at this
    rw [List.length_map, List.length_append, fixedHex_length, fixedHex_length] at this
    omega
  · refine refuse ?_ _ e
    rintro ⟨r, s, -, -, -, -, ht⟩
    apply hch
    apply lowerChar_hex
    have hmem : lowerChar c ∈ p1363Text n r s := by
      rw [← ht]
      exact List.mem_map_of_mem hcm
    unfold p1363Text fixedHex at hmem
    rcases List.mem_append.mp hmem with h | h <;> exact hexOf_digits _ _ h
  · have uniq : ∀ r' s', SignatureText n v.sig r' s' → r' = r ∧ s' = s := by
      rintro r' s' ⟨-, h1, -, h2, h3⟩
      rw [ht] at h3
      unfold p1363Text at h3
      obtain ⟨e1, e2⟩ := List.append_inj h3 (by rw [fixedHex_length, fixedHex_length])
      exact ⟨(fixedHex_inj hr (lt_octets_len h1) e1).symm, (fixedHex_inj hs (lt_octets_len h2) e2).symm⟩
    rcases hrest with ⟨hout, e⟩ | ⟨hin, sig, e, hp, hdr, hds⟩
    · refine refuse ?_ _ e
      rintro ⟨r', s', hs'⟩
      obtain ⟨rfl, rfl⟩ := uniq r' s' hs'
      exact hout ⟨hs'.1, hs'.2.1, hs'.2.2.1, hs'.2.2.2.1⟩
    · have hst : SignatureText n v.sig r s := ⟨hin.1, hin.2.1, hin.2.2.1, hin.2.2.2, ht⟩
      obtain ⟨st', ed⟩ := hc.digest Unit m st msg hl
      have hacc : Accepted n h G Q msg v.sig ↔
          leadingBits (bitLength n) (h msg) ≠ 0 ∧ EcdsaVerifies n G Q (leadingBits (bitLength n) (h msg)) r s := by
        constructor
        · rintro ⟨r', s', hs', h1, h2⟩
          obtain ⟨rfl, rfl⟩ := uniq r' s' hs'
          exact ⟨h1, h2⟩
        · exact fun h => ⟨r, s, hst, h⟩
      have hv := C25_verify m w cp p n a b G hD sig hp r s hin.1 hin.2.2.1 hin.2.2.2 hdr hds pk hpk Q hQ hnQ (h msg)
        { enforceLowS := false, strictHashByteLength := false } nofun _ rfl
      unfold ecdsaTest
      rw [e]
      simp only [hexToBytes_of hm, unwrapped, bind_ok, ed]
      have bad : ¬ Accepted n h G Q msg v.sig → ∀ st' : H.State,
          Decides (do LCT.rassert (v.result == .invalid); return st') (EcdsaClaim n h G Q msg v.sig v.result) := by
        intro hna st'
        refine Decides.rassert ?_
        cases hres : v.result
        · exact ⟨fun h => (by cases h), fun h => absurd h hna⟩
        · exact ⟨fun _ => hna, fun _ => rfl⟩
        · exact ⟨fun h => (by cases h), fun h => absurd ⟨r, s, hst⟩ h⟩
        · exact ⟨fun h => (by cases h), fun h => h.elim⟩
      have good : Accepted n h G Q msg v.sig → ∀ st' : H.State,
          Decides (do LCT.rassert (v.result == .valid); return st') (EcdsaClaim n h G Q msg v.sig v.result) := by
        intro hna st'
        refine Decides.rassert ?_
        cases hres : v.result
        · exact ⟨fun _ => hna, fun _ => rfl⟩
        · exact ⟨fun h => (by cases h), fun h => absurd hna h⟩
        · exact ⟨fun h => (by cases h), fun h => absurd ⟨r, s, hst⟩ h⟩
        · exact ⟨fun h => (by cases h), fun h => h.elim⟩
      split at hv
      · rename_i h0
        rw [hv]
        refine bad (fun ha => (hacc.mp ha).1 ?_) st'
        rw [h0]
        simp [leadingBits, ofBE]
      rw [if_neg (by simp), if_neg (by simp)] at hv
      split at hv
      · rename_i h0
        rw [hv]
        exact bad (fun ha => (hacc.mp ha).1 h0) st'
      · rename_i h0
        by_cases hev : EcdsaVerifies n G Q (leadingBits (bitLength n) (h msg)) r s
        · rw [hv.1 hev]
          exact good (hacc.mpr ⟨h0, hev⟩) st'
        · rw [hv.2 hev]
          exact bad (fun ha => hev (hacc.mp ha).2) st'

theorem ecdsaTests_decides {pk : PublicKey} (hpk : pk.params = cp) {Q : (curve (a : ZMod p) (b : ZMod p)).Point} (hQ : PointDenotes w pk.data Q)
    (hnQ : n • Q = 0) (msg : EcdsaVector → List UInt8) (vs : List EcdsaVector)
    (hm : ∀ v ∈ vs, lower v.msg = hexOf (msg v) ∧ (msg v).length < limit) (st : H.State) :
    Decides (ecdsaTests m w H cp pk st vs) (∀ v ∈ vs, EcdsaClaim n h G Q (msg v) v.sig v.result) := by
  induction vs generalizing st with
  | nil => exact ⟨fun _ => ⟨st, rfl⟩, fun hn => absurd (by simp) hn⟩
  | cons v vs ih =>
    have h1 := hm v (List.mem_cons_self ..)
    refine Decides.congr (by rw [List.forall_mem_cons]) (Decides.bind (ecdsaTest_decides hD hc hpk hQ hnQ st v h1.1 h1.2) fun _ st' => ?_)
    exact ih (fun v hv => hm v (List.mem_cons_of_mem _ hv)) st'

theorem ecdsaFile_decides (Q : EcdsaGroup → (curve (a : ZMod p) (b : ZMod p)).Point) (msg : EcdsaVector → List UInt8) (gs : List EcdsaGroup)
    (hk : ∀ g ∈ gs, Q g ≠ 0 ∧ n • Q g = 0 ∧ IsUncompressed n g.key (Q g))
    (hm : ∀ g ∈ gs, ∀ v ∈ g.tests, lower v.msg = hexOf (msg v) ∧ (msg v).length < limit) (st : H.State) :
    Decides (ecdsaFile m w H cp st gs) (∀ g ∈ gs, ∀ v ∈ g.tests, EcdsaClaim n h G (Q g) (msg v) v.sig v.result) := by
  induction gs generalizing st with
  | nil => exact ⟨fun _ => ⟨st, rfl⟩, fun hn => absurd (by simp) hn⟩
  | cons g gs ih =>
    obtain ⟨h0, hn, hu⟩ := hk g (List.mem_cons_self ..)
    obtain ⟨pk, e, hpk⟩ := (C20_accepts_iff m w cp p n a b G hD g.key (Q g)).mpr ⟨h0, hn, .inl hu⟩
    have hpar : pk.params = cp := by
      unfold PublicKey.fromSec1Hex at e
      cases hd : decodePoint m w g.key cp with
      | ok pt => rw [hd] at e; cases e; rfl
      | err _ => rw [hd] at e; cases e
      | panic => rw [hd] at e; cases e
      | hang => rw [hd] at e; cases e
    unfold ecdsaFile
    rw [e]
    simp only [unwrapped, bind_ok]
    refine Decides.congr (by rw [List.forall_mem_cons])
      (Decides.bind (ecdsaTests_decides hD hc hpar hpk hn msg g.tests (hm g (List.mem_cons_self ..)) st) fun _ st' => ?_)
    exact ih (fun v hv => hk v (List.mem_cons_of_mem _ hv)) (fun v hv => hm v (List.mem_cons_of_mem _ hv)) st'

end

section
variable {m : Build} {H : Hasher} {h : List UInt8 → List UInt8} {limit : Nat} (hc : Computes H h limit)
include hc

theorem hmacTest_decides (ho : H.outLen ≤ H.blockLen) (hm' : H.blockLen + H.outLen < limit) (tagSize : Nat) (st : H.State) (v : HmacVector)
    {key msg : List UInt8} (hk : lower v.key = hexOf key) (hm : lower v.msg = hexOf msg) (hkl : key.length < limit)
    (hml : H.blockLen + msg.length < limit) :
    Decides (hmacTest m H (tagSize / 8) st v)
      (tagSize / 8 ≤ H.outLen ∧ HmacClaim h H.blockLen tagSize key msg v.tag v.result) := by
  obtain ⟨⟨d, st'⟩, e, rfl⟩ := hmac_y (ε := Unit) m hc ho st hkl hml hm'
  unfold hmacTest
  simp only [hexToBytes_of hk, hexToBytes_of hm, unwrapped, bind_ok, e, hmac_length hc, bytesToLowerHex_eq]
  by_cases hle : tagSize / 8 ≤ H.outLen
  · rw [decide_eq_true hle]
    simp only [rassert_true, bind_ok]
    refine Decides.congr (and_iff_right hle).symm ?_
    split
    · rename_i ht
      refine Decides.rassert ?_
      have ht := (beq_iff_eq.mp ht).symm
      cases hres : v.result
      · exact ⟨fun _ => ht, fun _ => rfl⟩
      · exact ⟨fun h => (by cases h), fun h => absurd ht h⟩
      · exact ⟨fun h => (by cases h), fun h => h.elim⟩
      · exact ⟨fun h => (by cases h), fun h => h.elim⟩
    · rename_i ht
      refine Decides.rassert ?_
      have ht : v.tag ≠ _ := fun e => ht (beq_iff_eq.mpr e.symm)
      cases hres : v.result
      · exact ⟨fun h => (by cases h), fun h => absurd h ht⟩
      · exact ⟨fun _ => ht, fun _ => rfl⟩
      · exact ⟨fun h => (by cases h), fun h => h.elim⟩
      · exact ⟨fun h => (by cases h), fun h => h.elim⟩
  · rw [decide_eq_false hle]
    exact ⟨fun h => absurd h.1 hle, fun _ => rfl⟩

theorem hmacTests_decides (ho : H.outLen ≤ H.blockLen) (hm' : H.blockLen + H.outLen < limit) (tagSize : Nat)
    (key msg : HmacVector → List UInt8) (vs : List HmacVector) (hv : ∀ v ∈ vs, lower v.key = hexOf (key v) ∧ lower v.msg = hexOf (msg v) ∧
      (key v).length < limit ∧ H.blockLen + (msg v).length < limit) (st : H.State) :
    Decides (hmacTests m H (tagSize / 8) st vs)
      (∀ v ∈ vs, tagSize / 8 ≤ H.outLen ∧ HmacClaim h H.blockLen tagSize (key v) (msg v) v.tag v.result) := by
  induction vs generalizing st with
  | nil => exact ⟨fun _ => ⟨st, rfl⟩, fun hn => absurd (by simp) hn⟩
  | cons v vs ih =>
    obtain ⟨h1, h2, h3, h4⟩ := hv v (List.mem_cons_self ..)
    refine Decides.congr (by rw [List.forall_mem_cons]) (Decides.bind (hmacTest_decides hc ho hm' tagSize st v h1 h2 h3 h4) fun _ st' => ?_)
    exact ih (fun v hv' => hv v (List.mem_cons_of_mem _ hv')) st'

theorem hmacFile_decides (ho : H.outLen ≤ H.blockLen) (hm' : H.blockLen + H.outLen < limit) (key msg : HmacVector → List UInt8)
    (gs : List HmacGroup) (hv : ∀ g ∈ gs, ∀ v ∈ g.tests, lower v.key = hexOf (key v) ∧ lower v.msg = hexOf (msg v) ∧
      (key v).length < limit ∧ H.blockLen + (msg v).length < limit) (st : H.State) :
    Decides (hmacFile m H st gs)
      (∀ g ∈ gs, ∀ v ∈ g.tests, g.tagSize / 8 ≤ H.outLen ∧ HmacClaim h H.blockLen g.tagSize (key v) (msg v) v.tag v.result) := by
  induction gs generalizing st with
  | nil => exact ⟨fun _ => ⟨st, rfl⟩, fun hn => absurd (by simp) hn⟩
  | cons g gs ih =>
    refine Decides.congr (by rw [List.forall_mem_cons])
      (Decides.bind (hmacTests_decides hc ho hm' g.tagSize key msg g.tests (hv g (List.mem_cons_self ..)) st) fun _ st' => ?_)
    exact ih (fun v hv' => hv v (List.mem_cons_of_mem _ hv')) st'

end

/-! ## Lines of text -/

theorem white_blank {c : UInt8} (h : White c) : isBlank c = true := by
  unfold isBlank
  rcases h with rfl | ⟨h1, h2⟩
  · rfl
  · simp [h1, h2]

theorem blank_white {c : UInt8} (h : isBlank c = true) : White c := by
  unfold isBlank at h
  simpa [White] using h

theorem dropWhile_blank {u : List UInt8} (hu : ∀ c ∈ u, White c) (t : List UInt8) : (u ++ t).dropWhile isBlank = t.dropWhile isBlank := by
  induction u with
  | nil => rfl
  | cons c u ih =>
    rw [List.cons_append, List.dropWhile_cons_of_pos (white_blank (hu c (List.mem_cons_self ..))), ih fun c hc => hu c (List.mem_cons_of_mem _ hc)]

theorem dropWhile_solid {v t : List UInt8} (hv : ∀ c ∈ v, isBlank c = false) : (v ++ t).dropWhile isBlank = if v = [] then t.dropWhile isBlank else v ++ t := by
  cases v with
  | nil => rfl
  | cons c v =>
    rw [if_neg (by simp), List.cons_append, List.dropWhile_cons_of_neg (by rw [hv c (List.mem_cons_self ..)]; decide)]

theorem trim_eq {a b : List UInt8} (ha : ∀ c ∈ a, White c) (hb : ∀ c ∈ b, White c) {v : List UInt8} (hv : ∀ c ∈ v, isBlank c = false) :
    trim (a ++ v ++ b) = v := by
  unfold trim
  rw [List.append_assoc, dropWhile_blank ha, dropWhile_solid hv]
  split
  · rename_i h
    subst h
    have := dropWhile_blank hb []
    rw [List.append_nil] at this
    rw [this]
    rfl
  · rw [List.reverse_append, dropWhile_blank fun c hc => hb c (List.mem_reverse.mp hc)]
    have := dropWhile_solid (v := v.reverse) (t := []) (fun c hc => hv c (List.mem_reverse.mp hc))
    rw [List.append_nil] at this
    rw [this]
    split
    · rename_i h
      rw [List.reverse_eq_nil_iff.mp h]
      rfl
    · exact List.reverse_reverse v

theorem secondPiece_eq {name value line : List UInt8} (hn : ∀ c ∈ name, c ≠ 61) (hv : ∀ c ∈ value, c ≠ 61) (h : IsField name value line) :
    ∃ a b, (∀ c ∈ a, White c) ∧ (∀ c ∈ b, White c) ∧ secondPiece line = .ok (a ++ value ++ b) := by
  obtain ⟨a, b, ha, hb, rfl⟩ := h
  refine ⟨a, b, ha, hb, ?_⟩
  have hw : ∀ {c : UInt8}, White c → c ≠ 61 := by
    rintro c h rfl
    rcases h with h | ⟨_, h⟩ <;> exact absurd h (by decide)
  have hd : ∀ (u t : List UInt8), (∀ c ∈ u, c ≠ 61) → (u ++ 61 :: t).dropWhile (· != 61) = 61 :: t := by
    intro u t hu
    induction u with
    | nil => rfl
    | cons c u ih =>
      rw [List.cons_append, List.dropWhile_cons_of_pos (by simpa using hu c (List.mem_cons_self ..)),
        ih fun c hc => hu c (List.mem_cons_of_mem _ hc)]
  have ht : ∀ u : List UInt8, (∀ c ∈ u, c ≠ 61) → u.takeWhile (· != 61) = u := by
    intro u hu
    induction u with
    | nil => rfl
    | cons c u ih =>
      rw [List.takeWhile_cons_of_pos (by simpa using hu c (List.mem_cons_self ..)), ih fun c hc => hu c (List.mem_cons_of_mem _ hc)]
  unfold secondPiece
  have e : name ++ [32, 61] ++ a ++ value ++ b = (name ++ [32]) ++ 61 :: (a ++ value ++ b) := by simp
  rw [e, hd _ _ (by
    intro c hc
    rcases List.mem_append.mp hc with hc | hc
    · exact hn c hc
    · rw [List.mem_singleton.mp hc]; decide)]
  simp only
  rw [ht]
  intro c hc
  rcases List.mem_append.mp hc with hc | hc
  · rcases List.mem_append.mp hc with hc | hc
    · exact hw (ha c hc)
    · exact hv c hc
  · exact hw (hb c hc)

theorem byte_forall {P : UInt8 → Prop} (h : ∀ i : Fin 256, P (UInt8.ofNat i)) (c : UInt8) : P c := by
  have := h ⟨c.toNat, c.toNat_lt⟩
  simpa using this

theorem digit_solid (c : UInt8) : (48 ≤ c ∧ c ≤ 57) → isBlank c = false ∧ c ≠ 61 ∧ c ≠ 43 :=
  byte_forall (P := fun c => (48 ≤ c ∧ c ≤ 57) → isBlank c = false ∧ c ≠ 61 ∧ c ≠ 43) (by decide +kernel) c

theorem hex_solid (c : UInt8) : IsHexDigit c → isBlank c = false ∧ c ≠ 61 :=
  byte_forall (P := fun c => IsHexDigit c → isBlank c = false ∧ c ≠ 61) (by decide +kernel) c

theorem parseDigits_eq (cs : List UInt8) (hcs : ∀ c ∈ cs, 48 ≤ c ∧ c ≤ 57) (acc : Nat)
    (hlt : cs.foldl (fun acc c => acc * 10 + (c.toNat - 48)) acc < 2 ^ 64) :
    parseDigits acc cs = .ok (cs.foldl (fun acc c => acc * 10 + (c.toNat - 48)) acc) := by
  have hle : ∀ (cs : List UInt8) (acc : Nat), acc ≤ cs.foldl (fun acc c => acc * 10 + (c.toNat - 48)) acc := by
    intro cs
    induction cs with
    | nil => exact fun acc => le_refl acc
    | cons c cs ih =>
      intro acc
      refine le_trans ?_ (ih _)
      show acc ≤ acc * 10 + _
      omega
  induction cs generalizing acc with
  | nil => rfl
  | cons c cs ih =>
    unfold parseDigits
    rw [if_pos (hcs c (List.mem_cons_self ..))]
    simp only [List.foldl_cons] at hlt ⊢
    rw [if_pos (lt_of_le_of_lt (hle cs _) hlt)]
    exact ih (fun c hc => hcs c (List.mem_cons_of_mem _ hc)) _ hlt

theorem parseUsize_eq {t : List UInt8} (h0 : t ≠ []) (hcs : ∀ c ∈ t, 48 ≤ c ∧ c ≤ 57) (hlt : decimalValue t < 2 ^ 64) :
    parseUsize t = .ok (decimalValue t) := by
  cases t with
  | nil => exact absurd rfl h0
  | cons c cs =>
    show (if c == 43 then _ else _) = _
    rw [if_neg (by simpa using (digit_solid c (hcs c (List.mem_cons_self ..))).2.2)]
    exact parseDigits_eq _ hcs 0 hlt

theorem parseDigits_panic (cs : List UInt8) (acc : Nat) (hacc : acc < 2 ^ 64)
    (h : ¬ ((∀ c ∈ cs, 48 ≤ c ∧ c ≤ 57) ∧ cs.foldl (fun acc c => acc * 10 + (c.toNat - 48)) acc < 2 ^ 64)) : parseDigits acc cs = .panic := by
  induction cs generalizing acc with
  | nil => exact absurd ⟨by simp, hacc⟩ h
  | cons c cs ih =>
    unfold parseDigits
    split
    · rename_i hd
      show (if _ then _ else _) = _
      split
      · rename_i hlt
        refine ih _ hlt fun ⟨h1, h2⟩ => h ⟨?_, h2⟩
        rw [List.forall_mem_cons]
        exact ⟨hd, h1⟩
      · rfl
    · rfl

theorem parseUsize_panic {t : List UInt8} (h : ¬ LengthNumeral t) : parseUsize t = .panic := by
  cases t with
  | nil => rfl
  | cons c cs =>
    show (if c == 43 then (if cs.isEmpty then .panic else parseDigits 0 cs) else parseDigits 0 (c :: cs)) = _
    split
    · rename_i hc
      split
      · rfl
      · rename_i hcs
        refine parseDigits_panic _ _ (by norm_num) fun ⟨h1, h2⟩ => h ⟨cs, .inr ?_, fun e => hcs (by rw [e]; rfl), h1, h2⟩
        rw [beq_iff_eq.mp hc]
    · exact parseDigits_panic _ _ (by norm_num) fun ⟨h1, h2⟩ => h ⟨c :: cs, .inl rfl, by simp, h1, h2⟩

/-- A length that is not a numeral. -/
theorem katLoop_length {m : Build} {H : Hasher} {before : List (List UInt8)} (hb : ∀ l ∈ before, ¬ [76, 101, 110, 32, 61] <+: l)
    {line value : List UInt8} (hf : IsField [76, 101, 110] value line) (hs : ∀ c ∈ value, ¬ White c ∧ c ≠ 61) (hn : ¬ LengthNumeral value)
    (rest : List (List UInt8)) (st : H.State) (count : Nat) : katLoop m H st count (before ++ line :: rest) = .panic := by
  induction before with
  | nil =>
    obtain ⟨a, b, ha, hb, e⟩ := secondPiece_eq (by decide) (fun c hc => (hs c hc).2) hf
    have hp : lenPrefix.isPrefixOf line = true := by
      obtain ⟨a, b, -, -, rfl⟩ := hf
      rw [List.isPrefixOf_iff_prefix]
      exact ⟨a ++ value ++ b, by simp [lenPrefix]⟩
    rw [List.nil_append, katLoop, hp]
    simp only [Bool.not_true, Bool.false_eq_true, if_false, e, bind_ok,
      trim_eq ha hb fun c hc => Bool.eq_false_iff.mpr fun h => (hs c hc).1 (blank_white h), parseUsize_panic hn]
    rfl
  | cons l before ih =>
    have : ¬ lenPrefix.isPrefixOf l = true := by
      rw [List.isPrefixOf_iff_prefix]
      exact hb l (List.mem_cons_self ..)
    rw [Bool.not_eq_true] at this
    rw [List.cons_append, katLoop, if_pos (by rw [this]; rfl)]
    exact ih fun l hl => hb l (List.mem_cons_of_mem _ hl)

theorem toLowercase_eq (t : List UInt8) : toLowercase t = lower t := by
  unfold toLowercase lower
  apply List.map_congr_left
  intro c _
  exact byte_forall (P := fun c => (if 65 ≤ c ∧ c ≤ 90 then c + 32 else c) = lowerChar c) (by decide +kernel) c

theorem isPrefix_len {value line : List UInt8} (h : IsField [76, 101, 110] value line) : lenPrefix.isPrefixOf line = true := by
  obtain ⟨a, b, -, -, rfl⟩ := h
  rw [List.isPrefixOf_iff_prefix]
  exact ⟨a ++ value ++ b, by simp [lenPrefix]⟩

theorem not_prefix {name value line : List UInt8} (hn : name.head? = some 77) (h : IsField name value line) : lenPrefix.isPrefixOf line = false := by
  obtain ⟨a, b, -, -, rfl⟩ := h
  cases name with
  | nil => cases hn
  | cons c name =>
    cases hn
    rfl

/-- The number of entries with a whole number of bytes. -/
def alignedCount (es : List KatEntry) : Nat := es.countP fun e => decide e.Aligned

theorem katLoop_eq {m : Build} {H : Hasher} {h : List UInt8 → List UInt8} {limit : Nat} (hc : Computes H h limit)
    {lines : List (List UInt8)} {es : List KatEntry} (hl : KatLines lines es) (hlim : ∀ e ∈ es, decimalValue e.len / 8 < limit)
    (st : H.State) (count : Nat) :
    ((∀ e ∈ es, e.Aligned → e.Claim h) → katLoop m H st count lines = .ok (count + alignedCount es)) ∧
    ((¬ ∀ e ∈ es, e.Aligned → e.Claim h) → katLoop m H st count lines = .panic) := by
  induction hl generalizing st count with
  | nil => exact ⟨fun _ => rfl, fun h => absurd (by simp) h⟩
  | @other line lines es hp _ ih =>
    have e : katLoop m H st count (line :: lines) = katLoop m H st count lines := by
      rw [katLoop, if_pos]
      have : ¬ lenPrefix.isPrefixOf line = true := by
        rw [List.isPrefixOf_iff_prefix]
        exact hp
      rw [Bool.not_eq_true] at this
      rw [this]
      rfl
    rw [e]
    exact ih hlim st count
  | @entry a b c lines en es hpr ha hb hcc _ ih =>
    have ih := ih fun e he => hlim e (List.mem_cons_of_mem _ he)
    obtain ⟨p1, p2, p3, p4, p5⟩ := hpr
    obtain ⟨piece, ea, et⟩ : ∃ piece, secondPiece a = .ok piece ∧ parseUsize (trim piece) = .ok (decimalValue en.len) := by
      rcases ha with ha | ha
      · obtain ⟨i, j, wi, wj, ea⟩ := secondPiece_eq (by decide) (fun c hc => (digit_solid c (p2 c hc)).2.1) ha
        refine ⟨_, ea, ?_⟩
        rw [trim_eq wi wj fun c hc => (digit_solid c (p2 c hc)).1, parseUsize_eq p1 p2 p3]
      · obtain ⟨i, j, wi, wj, ea⟩ := secondPiece_eq (by decide)
          (List.forall_mem_cons.mpr ⟨by decide, fun c hc => (digit_solid c (p2 c hc)).2.1⟩) ha
        refine ⟨_, ea, ?_⟩
        rw [trim_eq wi wj (List.forall_mem_cons.mpr ⟨by decide, fun c hc => (digit_solid c (p2 c hc)).1⟩)]
        show (if en.len.isEmpty then .panic else parseDigits 0 en.len) = _
        rw [if_neg (by simpa using p1)]
        exact parseDigits_eq _ p2 0 p3
    have hpre : lenPrefix.isPrefixOf a = true := ha.elim isPrefix_len isPrefix_len
    obtain ⟨i', j', wi', wj', eb⟩ := secondPiece_eq (by decide) (fun c hc => (hex_solid c (p4 c hc)).2) hb
    obtain ⟨i'', j'', wi'', wj'', ec⟩ := secondPiece_eq (by decide) (fun c hc => (hex_solid c (p5 c hc)).2) hcc
    rw [katLoop, hpre]
    simp only [Bool.not_true, Bool.false_eq_true, if_false, ea, bind_ok, et]
    by_cases hal : en.Aligned
    · rw [if_neg (by unfold KatEntry.Aligned at hal; simpa using hal)]
      simp only [eb, ec, bind_ok, trim_eq wi' wj' fun c hc => (hex_solid c (p4 c hc)).1, trim_eq wi'' wj'' fun c hc => (hex_solid c (p5 c hc)).1,
        toLowercase_eq]
      have hcount : alignedCount (en :: es) = 1 + alignedCount es := by
        unfold alignedCount
        rw [List.countP_cons_of_pos (by simpa using hal), Nat.add_comm]
      rw [hcount]
      have fails : ¬ en.Claim h → ¬ ∀ e ∈ en :: es, e.Aligned → e.Claim h := fun hn hall => hn (hall en (List.mem_cons_self ..) hal)
      cases hx : hexToBytes en.msg with
      | ok bytes =>
        obtain ⟨-, -, hlow⟩ := (C17_decode_ok_iff _ _).mp hx
        have hcl : en.Claim h ↔ decimalValue en.len / 8 ≤ bytes.length ∧ lower en.md = hexOf (h (bytes.take (decimalValue en.len / 8))) := by
          constructor
          · rintro ⟨bs, e1, e2⟩
            have : bs = bytes := hexOf_injective (e1.symm.trans hlow)
            subst this
            exact e2
          · exact fun hh => ⟨bytes, hlow, hh⟩
        simp only [unwrapped, bind_ok]
        by_cases hle : decimalValue en.len / 8 ≤ bytes.length
        · rw [decide_eq_true hle]
          obtain ⟨st', ed⟩ := hc.digest Unit m st (bytes.take (decimalValue en.len / 8))
            (lt_of_le_of_lt (List.length_take_le _ _) (hlim en (List.mem_cons_self ..)))
          simp only [rassert_true, bind_ok, ed, bytesToLowerHex_eq]
          by_cases hmd : lower en.md = hexOf (h (bytes.take (decimalValue en.len / 8)))
          · rw [hmd]
            simp only [beq_self_eq_true, rassert_true, bind_ok]
            have hyes := hcl.mpr ⟨hle, hmd⟩
            have hiff : (∀ e ∈ en :: es, e.Aligned → e.Claim h) ↔ ∀ e ∈ es, e.Aligned → e.Claim h := by
              rw [List.forall_mem_cons]
              exact and_iff_right fun _ => hyes
            rw [hiff, ← Nat.add_assoc]
            exact ih st' (count + 1)
          · have hb : (hexOf (h (bytes.take (decimalValue en.len / 8))) == lower en.md) = false := by
              rw [beq_eq_false_iff_ne]
              exact fun e => hmd e.symm
            rw [hb]
            exact ⟨fun hall => absurd hall (fails fun hh => hmd (hcl.mp hh).2), fun _ => rfl⟩
        · rw [decide_eq_false hle]
          exact ⟨fun hall => absurd hall (fails fun hh => hle (hcl.mp hh).1), fun _ => rfl⟩
      | err e =>
        refine ⟨fun hall => absurd hall (fails ?_), fun _ => rfl⟩
        rintro ⟨bs, e1, -⟩
        rw [hexToBytes_of e1] at hx
        cases hx
      | panic =>
        refine ⟨fun hall => absurd hall (fails ?_), fun _ => rfl⟩
        rintro ⟨bs, e1, -⟩
        rw [hexToBytes_of e1] at hx
        cases hx
      | hang =>
        rw [hexToBytes_eq] at hx
        split at hx
        · rename_i he
          rcases hexLoop_cases _ he with ⟨_, e, -⟩ | ⟨e, -⟩ <;> rw [e] at hx <;> cases hx
        · cases hx
    · rw [if_pos (by unfold KatEntry.Aligned at hal; simpa using hal)]
      have e1 : katLoop m H st count (b :: c :: lines) = katLoop m H st count lines := by
        rw [katLoop, not_prefix rfl hb]
        simp only [Bool.not_false, if_true]
        rw [katLoop, not_prefix rfl hcc]
        simp only [Bool.not_false, if_true]
      have hcount : alignedCount (en :: es) = alignedCount es := by
        unfold alignedCount
        rw [List.countP_cons_of_neg (by simpa using hal)]
      have hiff : (∀ e ∈ en :: es, e.Aligned → e.Claim h) ↔ ∀ e ∈ es, e.Aligned → e.Claim h := by
        rw [List.forall_mem_cons]
        exact and_iff_right fun h => absurd h hal
      rw [e1, hcount, hiff]
      exact ih st count

end LCT.VectorTests
