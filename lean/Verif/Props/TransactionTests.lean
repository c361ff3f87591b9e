import Verif.Lemmas.TransactionTests
import Verif.Props.Signing
import Verif.Props.Recovery

/-!
# C94: the tests with published transactions pass exactly for right transactions
-/

namespace LCT.Props
open LCT.Spec LCT.Spec.Eth LCT.Out LCT.BigInt LCT.Crypto LCT.Codecs LCT.Ethereum LCT.RandomTests LCT.TestingTools LCT.TransactionTests LCT.Random LCT.Hash

variable (m : Build) (w : Nat) [hw : DigitWidth w]

omit hw in
private theorem leading_keccak (P : Payload) : leadingBits (bitLength Secp256k1.n) (Sha3.keccak256 P.preimage) = P.digest := by
  rw [bitLength_n]
  rfl

/-- There is only one signed transaction. -/
theorem signsTo_unique {d : Nat} {P : Payload} {T T' : Signed} (h : SignsTo d P T) (h' : SignsTo d P T') : T = T' := by
  obtain ⟨-, k, id, hk, hi, rfl⟩ := h
  obtain ⟨-, k', id', hk', hi', rfl⟩ := h'
  have := C26_unique _ _ _ _ _ _ _ _ _ hk.1 hk'.1
  subst this
  have : idOdd id = idOdd id' := hi.2.trans hi'.2.symm
  rw [this]

/-- Building, signing and comparing. -/
theorem finish_spec (rand : Nat → Out RandomError (List UInt8)) (hrand : ∀ i bytes, rand i = .ok bytes → bytes.length = 32)
    (hpanic : ∀ i, rand i ≠ .panic) (kind : Kind) (b : Builder) (dr : Draft) (P : Payload) (hb : DraftOf w b dr) (hP : dr.payload kind = some P)
    (d : Nat) (hd0 : 0 < d) (hdn : d < Secp256k1.n) (key : PrivateKey) (hkey : (secp256k1 w : Out Unit _) = .ok key.params)
    (hd : Denotes w key.data d) (hf : P.Feasible d) (text : List UInt8) :
    ∃ f0, ∀ f nf, f0 ≤ f → f0 ≤ nf →
      ((∃ T, SignsTo d P T ∧ After2 (· = hexOf T.wire) text) → finish m w f nf rand kind b key text = .ok ()) ∧
      ((¬ ∃ T, SignsTo d P T ∧ After2 (· = hexOf T.wire) text) → finish m w f nf rand kind b key text = .panic) := by
  obtain ⟨hl, hnon, hwire⟩ := hf
  obtain ⟨cp, ecp, hD, hcof⟩ := secp256k1_y (ε := Unit) w
  have hcp : key.params = cp := by
    rw [hkey] at ecp
    injection ecp
  have hhl : ∀ i bytes, Drawn false (rand i) bytes →
      Sha2.Sha256.blockLen + Sha2.Sha256.outLen + 1 + 2 * ((bitLength Secp256k1.n + 7) / 8) + bytes.length < 2 ^ 61 := by
    intro i bytes hb
    cases (hb : bytes = [])
    rw [bitLength_n]
    decide
  have h8 : bitLength Secp256k1.n % 8 = 0 := by rw [bitLength_n]
  have hlen : (Sha3.keccak256 P.preimage).length = 32 := keccak_length _
  have hne : Sha3.keccak256 P.preimage ≠ [] := by
    intro h
    rw [h] at hlen
    cases hlen
  obtain ⟨P', p, b', eb, eP, hp, -⟩ | ⟨-, eP⟩ := build_any hb kind
  swap
  · rw [hP] at eP
    cases eP
  rw [hP] at eP
  injection eP with eP
  subst eP
  let o : SigningOptions := { SigningOptions.default with employExtraRandomData := false }
  by_cases hz : P.digest = 0
  · -- the hash is zero
    refine ⟨0, fun f nf _ _ => ⟨fun ⟨T, hT, _⟩ => absurd hz hT.1, fun _ => ?_⟩⟩
    have hs := C25_sign m w cp Secp256k1.p Secp256k1.n 0 7 LCT.Secp256k1.G hD Sha2.Sha256 Sha2.sha256 (2 ^ 61) Hash.Sha2.computes256 (by decide)
      (by decide) _ hdn key hcp hd (Sha3.keccak256 P.preimage) o (fun _ => h8) rand hhl f nf Hash.Sha2.Sha256.fresh _ rfl
    rw [if_neg hne, if_neg (fun h => h.2 (by rw [bitLength_n, hlen])), if_pos ⟨rfl, by rw [leading_keccak]; exact hz⟩] at hs
    have := sign_any m d hd0 hdn key hkey hd o rand hrand hpanic f nf p P hp hl
    rw [signDefault, hs] at this
    simp only [finish, eb, bind_ok, unwrap]
    rw [show p.sign m w f nf rand key { SigningOptions.default with employExtraRandomData := false } = _ from this]
    rfl
  · obtain ⟨k, hk⟩ := hnon hz
    have hk' : NonceOf Sha2.Sha256 Sha2.sha256 Secp256k1.n d (Sha3.keccak256 P.preimage) o.employExtraRandomData (rand 0) k := by
      obtain ⟨bytes, h1, h2⟩ := hk.1
      cases (h1 : bytes = [])
      exact ⟨[], rfl, h2⟩
    obtain ⟨f0, hf0⟩ := C27_progress m w cp Secp256k1.p Secp256k1.n 0 7 LCT.Secp256k1.G hD Sha2.Sha256 Sha2.sha256 (2 ^ 61) Hash.Sha2.computes256
      (by decide) (by decide) d hd0 hdn key hcp hd (Sha3.keccak256 P.preimage) o (fun _ => h8) rand hhl hne
      (fun _ => by rw [bitLength_n, hlen]) (fun _ => by rw [leading_keccak]; exact hz) 0 k (fun i hi => absurd hi (Nat.not_lt_zero i)) hk'
      (by rw [leading_keccak]; exact hk.2)
    refine ⟨f0, fun f nf h1 h2 => ?_⟩
    obtain ⟨sig, id, es, hr, hs⟩ := hf0 f nf Hash.Sha2.Sha256.fresh h1 h2
    rw [leading_keccak] at hs
    have hsig := signed m w cp Secp256k1.p Secp256k1.n 0 7 LCT.Secp256k1.G hD Sha2.Sha256 Sha2.sha256 (2 ^ 61) Hash.Sha2.computes256
      (by decide) (by decide) d hd0 hdn key hcp hd (Sha3.keccak256 P.preimage) o (fun _ => h8) rand hhl f nf Hash.Sha2.Sha256.fresh sig id es
    obtain ⟨-, r, s, -, hr', hs', -, -, -, -, -, -, hid⟩ := hsig
    rw [leading_keccak] at hid
    have er : r = ecdsaR Secp256k1.n LCT.Secp256k1.G k := by
      have := hr'.2.symm.trans hr.2
      omega
    have es' : s = lowS true Secp256k1.n (ecdsaS Secp256k1.n LCT.Secp256k1.G d P.digest k) := by
      have := hs'.2.symm.trans hs.2
      exact_mod_cast this
    have hT : SignsTo d P (P.signed (if idOdd id then 1 else 0) r s) := by
      refine ⟨hz, k, id, hk, ?_, ?_⟩
      · rw [← er, ← es']; exact hid
      · rw [er, es']
    have hsg := sign_any m d hd0 hdn key hkey hd o rand hrand hpanic f nf p P hp hl
    rw [signDefault, es] at hsg
    obtain ⟨t, et, ht⟩ := hsg r s hr' hs'
    have henc := encode_any m ht (hwire _ hT)
    have hfin : finish m w f nf rand kind b key text = (do
        let u ← slice2 text
        rassert (bytesToLowerHex (P.signed (if idOdd id then 1 else 0) r s).wire == u)) := by
      simp only [finish, eb, bind_ok, unwrap]
      rw [show p.sign m w f nf rand key { SigningOptions.default with employExtraRandomData := false } = .ok t from et]
      simp only [unwrapped, bind_ok, henc]
    rw [hfin]
    constructor
    · rintro ⟨T, h1, a, c, u, rfl, rfl⟩
      rw [signsTo_unique h1 hT, ← bytesToLowerHex_eq]
      simp [slice2]
    · intro hno
      match text with
      | [] => rfl
      | [_] => rfl
      | a :: c :: u =>
        have : ¬ bytesToLowerHex (P.signed (if idOdd id then 1 else 0) r s).wire = u := fun h =>
          hno ⟨_, hT, a, c, u, rfl, by rw [← h, bytesToLowerHex_eq]⟩
        show rassert (bytesToLowerHex (P.signed (if idOdd id then 1 else 0) r s).wire == u) = .panic
        rw [beq_eq_false_iff_ne.mpr this]
        rfl

/-- What `readUntyped` and its siblings read: a key, and a builder from which a payload of this kind is built. -/
def ReadOf (kind : Kind) (x : PrivateKey × Builder) (c : Nat × Payload) : Prop :=
  (secp256k1 w : Out Unit _) = .ok x.1.params ∧ Denotes w x.1.data c.1 ∧ 0 < c.1 ∧ c.1 < Secp256k1.n ∧
    ∃ dr, DraftOf w x.2 dr ∧ dr.payload kind = some c.2

/-- One vector, after the texts have been read. -/
theorem case_spec (rand : Nat → Out RandomError (List UInt8)) (hrand : ∀ i bytes, rand i = .ok bytes → bytes.length = 32)
    (hpanic : ∀ i, rand i ≠ .panic) (kind : Kind) (read : Out Unit (PrivateKey × Builder)) (S : Nat × Payload → Prop)
    (h : Reading read (ReadOf w kind) S) (hf : ∀ d P, S (d, P) → P.Feasible d) (text : List UInt8) :
    ∃ f0, ∀ f nf, f0 ≤ f → f0 ≤ nf →
      ((∃ d P T, S (d, P) ∧ SignsTo d P T ∧ After2 (· = hexOf T.wire) text) →
        (do let (key, b) ← read; finish m w f nf rand kind b key text; return true : Out Unit Bool) = .ok true) ∧
      ((¬ ∃ d P T, S (d, P) ∧ SignsTo d P T ∧ After2 (· = hexOf T.wire) text) →
        (do let (key, b) ← read; finish m w f nf rand kind b key text; return true : Out Unit Bool) = .panic) := by
  rcases h with ⟨⟨key, b⟩, ⟨d, P⟩, rfl, ⟨h1, h2, h3, h4, dr, h5, h6⟩, hS⟩ | ⟨rfl, hS⟩
  · obtain ⟨f0, h0⟩ := finish_spec m w rand hrand hpanic kind b dr P h5 h6 d h3 h4 key h1 h2 (hf d P ((hS _).mpr rfl)) text
    refine ⟨f0, fun f nf g1 g2 => ⟨?_, fun hno => ?_⟩⟩
    · rintro ⟨d', P', T, hs, hT, ht⟩
      injection (hS _).mp hs with e1 e2
      subst e1 e2
      simp only [bind_ok, (h0 f nf g1 g2).1 ⟨T, hT, ht⟩]
      rfl
    · have := (h0 f nf g1 g2).2 fun ⟨T, hT, ht⟩ => hno ⟨d, P, T, (hS _).mpr rfl, hT, ht⟩
      simp only [bind_ok, this]
      rfl
  · exact ⟨0, fun f nf _ _ => ⟨fun ⟨d, P, T, hs, _⟩ => absurd hs (hS _), fun _ => rfl⟩⟩

private theorem chain_y (c : UInt64) : ∃ x, (ChainId.fromU64 w c : Out Unit _) = .ok x ∧ Denotes w x (c.toNat : Int) := by
  obtain ⟨x, e, hx⟩ := Crypto.ofNat_y (ε := Unit) (w := w) (show c.toNat < 2 ^ 128 from lt_trans c.toNat_lt (by norm_num))
  exact ⟨x, e, hx⟩

/-- Reading an untyped vector. -/
theorem untyped_reads (chain : Option UInt64) (key nonce gasPrice recipient value data : List UInt8) (limit : UInt64)
    (hpos : ∀ z, WeiText gasPrice z → 0 ≤ z) (hpos' : ∀ z, WeiText value z → 0 ≤ z) :
    Reading (readUntyped m w chain key nonce gasPrice recipient value data limit) (ReadOf w (if chain.isSome then .eip155 else .legacy))
      (fun c => ∃ d, KeyText key d ∧ ∃ n, NonceText nonce n ∧ ∃ g : Nat, WeiText gasPrice g ∧ ∃ a, AddressText recipient a ∧
        ∃ x : Nat, WeiText value x ∧ ∃ bs, DataText data bs ∧ c = (d, match chain.map UInt64.toNat with
          | none => .legacy ⟨n, g, limit.toNat, a, x, bs⟩
          | some c => .eip155 ⟨c, n, g, limit.toNat, a, x, bs⟩)) := by
  obtain ⟨cp, ecp, hD, -⟩ := secp256k1_y (ε := Unit) w
  unfold readUntyped
  rw [ecp, bind_ok]
  obtain ⟨b, eb, hb⟩ : ∃ b, startBuilder w chain = .ok b ∧
      ((chain = none ∧ b = Builder.new) ∨ ∃ c x, chain = some c ∧ Denotes w x (c.toNat : Int) ∧ b = Builder.new.withChainId x) := by
    cases chain with
    | none => exact ⟨_, rfl, .inl ⟨rfl, rfl⟩⟩
    | some c =>
      obtain ⟨x, e, hx⟩ := chain_y w c
      exact ⟨_, by simp only [startBuilder, e, bind_ok]; rfl, .inr ⟨c, x, rfl, hx, rfl⟩⟩
  rw [eb]
  refine (key_reads m w cp hD.order key).bind fun xk d hk => ?_
  rw [bind_ok]
  refine (nonce_reads nonce).bind fun xn n hn => ?_
  refine (wei_reads m w gasPrice hpos).bind fun xg g hg => ?_
  refine (address_reads recipient).bind fun xa a ha => ?_
  refine (wei_reads m w value hpos').bind fun xx x hx => ?_
  refine (data_reads data).bind fun xb bs hbs => ?_
  refine Reading.pure ?_
  obtain ⟨hk1, hk2, hk3, hk4⟩ := hk
  subst ha hbs
  rcases hb with ⟨rfl, rfl⟩ | ⟨c, y, rfl, hy, rfl⟩
  · refine ⟨by rw [hk1]; exact ecp, hk2, hk3, hk4, ⟨none, some n, some g, none, none, some limit.toNat, some xa.data, some x, some xb, none⟩, ?_, rfl⟩
    exact ⟨.none, .some hn, .some hg, .none, .none, rfl, rfl, .some hx, rfl, rfl⟩
  · refine ⟨by rw [hk1]; exact ecp, hk2, hk3, hk4,
      ⟨some c.toNat, some n, some g, none, none, some limit.toNat, some xa.data, some x, some xb, none⟩, ?_, rfl⟩
    exact ⟨.some hy, .some hn, .some hg, .none, .none, rfl, rfl, .some hx, rfl, rfl⟩

private theorem nonceU64 (n : UInt64) : Reading (unwrap (EoaNonce.fromU64 n)) (fun (x : EoaNonce) (k : Nat) => x.value.toNat = k ∧ k < 2 ^ 64 - 1)
    (fun k => k = n.toNat ∧ k < 2 ^ 64 - 1) := by
  have hmax : n = 0xffffffffffffffff ↔ n.toNat = 2 ^ 64 - 1 := by
    rw [← UInt64.toNat_inj]
    rfl
  have hlt := n.toNat_lt
  unfold EoaNonce.fromU64
  by_cases hm : n.toNat = 2 ^ 64 - 1
  · rw [if_pos (hmax.mpr hm)]
    exact .inr ⟨rfl, fun k ⟨h1, h2⟩ => by omega⟩
  · rw [if_neg fun h => hm (hmax.mp h)]
    exact .inl ⟨_, n.toNat, rfl, ⟨rfl, by omega⟩, fun k => ⟨fun h => h.1, fun h => ⟨h, by omega⟩⟩⟩

/-- Reading a vector for EIP-2930. -/
theorem reads_2930 (v : Typed) (chainId nonce : UInt64) (gasPrice recipient value data : List UInt8) (limit : UInt64)
    (hpos : ∀ t z, Padded gasPrice t → WeiText t z → 0 ≤ z) (hpos' : ∀ z, WeiText value z → 0 ≤ z) :
    Reading (read2930 m w v chainId nonce gasPrice recipient value data limit) (ReadOf w .eip2930)
      (fun c => ∃ list, List.Forall₂ AccessText (v.accessList.getD []) list ∧ ∃ d, KeyText v.key d ∧ ∃ n, (n = nonce.toNat ∧ n < 2 ^ 64 - 1) ∧
        ∃ g, FeeText gasPrice g ∧ ∃ a, AddressText recipient a ∧ ∃ x : Nat, WeiText value x ∧ ∃ bs, DataText data bs ∧
        c = (d, .eip2930 ⟨chainId.toNat, n, g, limit.toNat, a, x, bs, list⟩)) := by
  obtain ⟨cp, ecp, hD, -⟩ := secp256k1_y (ε := Unit) w
  obtain ⟨y, ey, hy⟩ := chain_y w chainId
  unfold read2930
  refine (accessList_reads _).bind fun xl l hl => ?_
  rw [ecp, bind_ok]
  refine (key_reads m w cp hD.order v.key).bind fun xk d hk => ?_
  rw [ey, bind_ok]
  refine (nonceU64 nonce).bind fun xn n hn => ?_
  refine (fee_reads m w gasPrice hpos).bind fun xg g hg => ?_
  refine (address_reads recipient).bind fun xa a ha => ?_
  refine (wei_reads m w value hpos').bind fun xx x hx => ?_
  refine (data_reads data).bind fun xb bs hbs => ?_
  refine Reading.pure ?_
  obtain ⟨hk1, hk2, hk3, hk4⟩ := hk
  subst ha hbs hl
  refine ⟨by rw [hk1]; exact ecp, hk2, hk3, hk4,
    ⟨some chainId.toNat, some n, some g, none, none, some limit.toNat, some xa.data, some x, some xb, some (accesses xl)⟩, ?_, rfl⟩
  exact ⟨.some hy, .some hn, .some hg, .none, .none, rfl, rfl, .some hx, rfl, rfl⟩

/-- Reading a vector for EIP-1559. -/
theorem reads_1559 (v : Typed) (chainId nonce : UInt64) (maxPriorityFee maxFee recipient value data : List UInt8) (limit : UInt64)
    (hpos : ∀ t z, Padded maxPriorityFee t → WeiText t z → 0 ≤ z) (hpos' : ∀ t z, Padded maxFee t → WeiText t z → 0 ≤ z)
    (hpos'' : ∀ z, WeiText value z → 0 ≤ z) :
    Reading (read1559 m w v chainId nonce maxPriorityFee maxFee recipient value data limit) (ReadOf w .eip1559)
      (fun c => ∃ list, List.Forall₂ AccessText (v.accessList.getD []) list ∧ ∃ d, KeyText v.key d ∧ ∃ n, (n = nonce.toNat ∧ n < 2 ^ 64 - 1) ∧
        ∃ mp, FeeText maxPriorityFee mp ∧ ∃ mf, FeeText maxFee mf ∧ ∃ a, AddressText recipient a ∧ ∃ x : Nat, WeiText value x ∧
        ∃ bs, DataText data bs ∧ c = (d, .eip1559 ⟨chainId.toNat, n, mp, mf, limit.toNat, a, x, bs, list⟩)) := by
  obtain ⟨cp, ecp, hD, -⟩ := secp256k1_y (ε := Unit) w
  obtain ⟨y, ey, hy⟩ := chain_y w chainId
  unfold read1559
  refine (accessList_reads _).bind fun xl l hl => ?_
  rw [ecp, bind_ok]
  refine (key_reads m w cp hD.order v.key).bind fun xk d hk => ?_
  rw [ey, bind_ok]
  refine (nonceU64 nonce).bind fun xn n hn => ?_
  refine (fee_reads m w maxPriorityFee hpos).bind fun xg g hg => ?_
  refine (fee_reads m w maxFee hpos').bind fun xf mf hmf => ?_
  refine (address_reads recipient).bind fun xa a ha => ?_
  refine (wei_reads m w value hpos'').bind fun xx x hx => ?_
  refine (data_reads data).bind fun xb bs hbs => ?_
  refine Reading.pure ?_
  obtain ⟨hk1, hk2, hk3, hk4⟩ := hk
  subst ha hbs hl
  refine ⟨by rw [hk1]; exact ecp, hk2, hk3, hk4,
    ⟨some chainId.toNat, some n, none, some g, some mf, some limit.toNat, some xa.data, some x, some xb, some (accesses xl)⟩, ?_, rfl⟩
  exact ⟨.some hy, .some hn, .none, .some hg, .some hmf, rfl, rfl, .some hx, rfl, rfl⟩

/-- What is known of the run of one vector. -/
def CaseRuns {V : Type} (one : Nat → Nat → V → Out Unit Bool) (ignored claim : V → Prop) (v : V) : Prop :=
  ∃ f0, ∀ f nf, f0 ≤ f → f0 ≤ nf → (ignored v → one f nf v = .ok false) ∧ (¬ ignored v → claim v → one f nf v = .ok true) ∧
    (¬ ignored v → ¬ claim v → one f nf v = .panic)

open Classical in
/-- A file, from its vectors. -/
theorem file_runs {V : Type} (one : Nat → Nat → V → Out Unit Bool) (ignored claim : V → Prop) (threshold : Nat) (vs : List V)
    (h : ∀ v ∈ vs, CaseRuns one ignored claim v) :
    ∃ f0, ∀ f nf, f0 ≤ f → f0 ≤ nf →
      fileTest (one f nf) threshold vs = if RightFile ignored claim threshold vs then .ok () else .panic := by
  have loop : ∃ f0, ∀ f nf, f0 ≤ f → f0 ≤ nf → ∀ count, countLoop (one f nf) count vs =
      if ∀ v ∈ vs, ¬ ignored v → claim v then .ok (count + vs.countP fun v => decide (¬ ignored v)) else .panic := by
    induction vs with
    | nil => exact ⟨0, fun f nf _ _ count => by simp [countLoop]⟩
    | cons v vs ih =>
      obtain ⟨f1, h1⟩ := ih fun v hv => h v (List.mem_cons_of_mem _ hv)
      obtain ⟨f2, h2⟩ := h v List.mem_cons_self
      refine ⟨max f1 f2, fun f nf g1 g2 count => ?_⟩
      have h1 := h1 f nf (by omega) (by omega)
      obtain ⟨c1, c2, c3⟩ := h2 f nf (by omega) (by omega)
      unfold countLoop
      by_cases hi : ignored v
      · rw [c1 hi, bind_ok, h1]
        simp [hi]
      · by_cases hc : claim v
        · rw [c2 hi hc, bind_ok, h1]
          simp [hi, hc, Nat.add_assoc, Nat.add_comm 1]
        · rw [c3 hi hc, if_neg (fun hh => hc (hh v List.mem_cons_self hi))]
          rfl
  obtain ⟨f0, h0⟩ := loop
  refine ⟨f0, fun f nf g1 g2 => ?_⟩
  unfold fileTest RightFile
  rw [h0 f nf g1 g2 0, Nat.zero_add]
  by_cases hc : ∀ v ∈ vs, ¬ ignored v → claim v
  · rw [if_pos hc, bind_ok]
    by_cases ht : threshold < vs.countP fun v => decide (¬ ignored v)
    · rw [if_pos ⟨hc, ht⟩, decide_eq_true ht]; rfl
    · rw [if_neg fun hh => ht hh.2, decide_eq_false ht]; rfl
  · rw [if_neg hc, if_neg fun hh => hc hh.1]
    rfl

section
variable (rand : Nat → Out RandomError (List UInt8)) (hrand : ∀ i bytes, rand i = .ok bytes → bytes.length = 32) (hpanic : ∀ i, rand i ≠ .panic)
include hrand hpanic

/-- C94: one vector of the first two tests, for any chain. -/
theorem untyped_case (chain : Option UInt64) (v : Untyped) (hv : Untyped.Fair (chain.map UInt64.toNat) v) :
    CaseRuns (fun f nf => untypedCase m w f nf rand chain) Untyped.Ignored (Claims (Untyped.Reads (chain.map UInt64.toNat)) Untyped.signed) v := by
  obtain ⟨key, nonce, gasPrice, gasLimit, recipient, value, data, signed⟩ := v
  obtain ⟨hneg, hfeas⟩ := hv
  match nonce, gasPrice, gasLimit, recipient, value, data, hneg, hfeas with
  | none, gasPrice, gasLimit, recipient, value, data, _, _ =>
    exact ⟨0, fun f nf _ _ => ⟨fun _ => rfl, fun h => absurd (.inl rfl) h, fun h => absurd (.inl rfl) h⟩⟩
  | some nonce, none, gasLimit, recipient, value, data, _, _ =>
    exact ⟨0, fun f nf _ _ => ⟨fun _ => rfl, fun h => absurd (.inr (.inl rfl)) h, fun h => absurd (.inr (.inl rfl)) h⟩⟩
  | some nonce, some gasPrice, none, recipient, value, data, _, _ =>
    exact ⟨0, fun f nf _ _ => ⟨fun _ => rfl, fun h => absurd (.inr (.inr (.inl rfl))) h, fun h => absurd (.inr (.inr (.inl rfl))) h⟩⟩
  | some nonce, some gasPrice, some gasLimit, none, value, data, _, _ =>
    exact ⟨0, fun f nf _ _ => ⟨fun _ => rfl, fun h => absurd (.inr (.inr (.inr (.inl rfl)))) h, fun h => absurd (.inr (.inr (.inr (.inl rfl)))) h⟩⟩
  | some nonce, some gasPrice, some gasLimit, some recipient, none, data, _, _ =>
    exact ⟨0, fun f nf _ _ => ⟨fun _ => rfl, fun h => absurd (.inr (.inr (.inr (.inr (.inl rfl))))) h,
      fun h => absurd (.inr (.inr (.inr (.inr (.inl rfl))))) h⟩⟩
  | some nonce, some gasPrice, some gasLimit, some recipient, some value, none, _, _ =>
    exact ⟨0, fun f nf _ _ => ⟨fun _ => rfl, fun h => absurd (.inr (.inr (.inr (.inr (.inr (.inl rfl)))))) h,
      fun h => absurd (.inr (.inr (.inr (.inr (.inr (.inl rfl)))))) h⟩⟩
  | some nonce, some gasPrice, some gasLimit, some recipient, some value, some data, hneg, hfeas =>
    have hign : Untyped.Ignored ⟨key, some nonce, some gasPrice, some gasLimit, some recipient, some value, some data, signed⟩ ↔ NoLimit gasLimit := by
      simp [Untyped.Ignored]
    have hcase : ∀ f nf, untypedCase m w f nf rand chain
        ⟨key, some nonce, some gasPrice, some gasLimit, some recipient, some value, some data, signed⟩ = (do
        match ← gasLimitOf gasLimit with
        | none => return false
        | some limit => do
          let (key, b) ← readUntyped m w chain key nonce gasPrice recipient value data limit
          finish m w f nf rand (if chain.isSome then .eip155 else .legacy) b key signed
          return true) := fun _ _ => rfl
    unfold CaseRuns
    simp only [hign, hcase]
    rcases gasLimit_reads gasLimit with ⟨l, e, hno, hl⟩ | ⟨e, hno⟩ | ⟨e, hno, hl⟩
    · have hr := untyped_reads m w chain key nonce gasPrice recipient value data l (fun z => hneg _ z (.inl rfl)) (fun z => hneg _ z (.inr rfl))
      have hiff : ∀ d P, (∃ d', KeyText key d' ∧ ∃ n, NonceText nonce n ∧ ∃ g : Nat, WeiText gasPrice g ∧ ∃ a, AddressText recipient a ∧
          ∃ x : Nat, WeiText value x ∧ ∃ bs, DataText data bs ∧ (d, P) = (d', match chain.map UInt64.toNat with
            | none => .legacy ⟨n, g, l.toNat, a, x, bs⟩
            | some c => .eip155 ⟨c, n, g, l.toNat, a, x, bs⟩)) ↔ Untyped.Reads (chain.map UInt64.toNat)
          ⟨key, some nonce, some gasPrice, some gasLimit, some recipient, some value, some data, signed⟩ d P := by
        intro d P
        constructor
        · rintro ⟨d', h1, n, h2, g, h3, a, h4, x, h5, bs, h6, h7⟩
          injection h7 with h7 h8
          subst h7
          exact ⟨nonce, gasPrice, gasLimit, recipient, value, data, rfl, rfl, rfl, rfl, rfl, rfl, h1, n, g, l.toNat, a, x, bs, h2, h3,
            (hl _).mpr rfl, h4, h5, h6, h8⟩
        · rintro ⟨nonce', gasPrice', gasLimit', recipient', value', data', e1, e2, e3, e4, e5, e6, h1, n, g, l', a, x, bs, h2, h3, h9, h4, h5, h6, h8⟩
          cases e1; cases e2; cases e3; cases e4; cases e5; cases e6
          have := (hl _).mp h9
          subst this
          exact ⟨d, h1, n, h2, g, h3, a, h4, x, h5, bs, h6, congrArg (Prod.mk d) h8⟩
      obtain ⟨f0, h0⟩ := case_spec m w rand hrand hpanic _ _ _ hr (fun d P h => hfeas d P ((hiff d P).mp h)) signed
      simp only [hiff] at h0
      refine ⟨f0, fun f nf g1 g2 => ⟨fun h => absurd h hno, fun _ hc => ?_, fun _ hc => ?_⟩⟩
      · rw [e, bind_ok]; exact (h0 f nf g1 g2).1 hc
      · rw [e, bind_ok]; exact (h0 f nf g1 g2).2 hc
    · exact ⟨0, fun f nf _ _ => ⟨fun _ => by rw [e]; rfl, fun h => absurd hno h, fun h => absurd hno h⟩⟩
    · refine ⟨0, fun f nf _ _ => ⟨fun h => absurd h hno, fun _ hc => ?_, fun _ _ => by rw [e]; rfl⟩⟩
      obtain ⟨d, P, T, ⟨nonce', gasPrice', gasLimit', recipient', value', data', e1, e2, e3, e4, e5, e6, h1, n, g, l', a, x, bs, h2, h3, h9, -⟩, -⟩ := hc
      cases e3
      exact absurd h9 (hl _)

/-- C94: one vector of the third test. -/
theorem case_2930 (v : Typed) (hv : Typed.Fair Typed.Reads2930 v) :
    CaseRuns (fun f nf => case2930 m w f nf rand) Typed.Ignored2930 (Claims Typed.Reads2930 Typed.signed) v := by
  obtain ⟨hneg, hneg', hfeas⟩ := hv
  by_cases hmiss : v.type ≠ 1 ∨ v.chainId = none ∨ v.nonce = none ∨ v.gasPrice = none ∨ v.gasLimit = none ∨ v.recipient = none ∨ v.value = none ∨
      v.data = none
  · have hi : Typed.Ignored2930 v := by
      unfold Typed.Ignored2930
      tauto
    refine ⟨0, fun f nf _ _ => ⟨fun _ => ?_, fun h => absurd hi h, fun h => absurd hi h⟩⟩
    show case2930 m w f nf rand v = .ok false
    unfold case2930
    by_cases ht : v.type ≠ 1
    · rw [if_pos ht]
    · rw [if_neg ht]
      split
      · rename_i e1 e2 e3 e4 e5 e6 e7
        simp [e1, e2, e3, e4, e5, e6, e7, ht] at hmiss
      · rfl
  · simp only [not_or, not_not, ← ne_eq, Option.ne_none_iff_exists'] at hmiss
    obtain ⟨ht, ⟨chainId, e1⟩, ⟨nonce, e2⟩, ⟨gasPrice, e3⟩, ⟨gasLimit, e4⟩, ⟨recipient, e5⟩, ⟨value, e6⟩, ⟨data, e7⟩⟩ := hmiss
    have hign : Typed.Ignored2930 v ↔ NoLimit gasLimit := by
      simp [Typed.Ignored2930, e1, e2, e3, e4, e5, e6, e7, ht]
    have hcase : ∀ f nf, case2930 m w f nf rand v = (do
        match ← gasLimitOf gasLimit with
        | none => return false
        | some limit => do
          let (key, b) ← read2930 m w v chainId nonce gasPrice recipient value data limit
          finish m w f nf rand .eip2930 b key v.signed
          return true) := by
      intro f nf
      unfold case2930
      rw [if_neg (by simp [ht]), e1, e2, e3, e4, e5, e6, e7]
      rfl
    unfold CaseRuns
    simp only [hign, hcase]
    rcases gasLimit_reads gasLimit with ⟨l, e, hno, hl⟩ | ⟨e, hno⟩ | ⟨e, hno, hl⟩
    · have hr := reads_2930 m w v chainId nonce gasPrice recipient value data l (fun t z => hneg _ t z (.inl e3)) (fun z => hneg' _ z e6)
      have hiff : ∀ d P, (∃ list, List.Forall₂ AccessText (v.accessList.getD []) list ∧ ∃ d', KeyText v.key d' ∧
          ∃ n, (n = nonce.toNat ∧ n < 2 ^ 64 - 1) ∧ ∃ g, FeeText gasPrice g ∧ ∃ a, AddressText recipient a ∧ ∃ x : Nat, WeiText value x ∧
          ∃ bs, DataText data bs ∧ (d, P) = (d', .eip2930 ⟨chainId.toNat, n, g, l.toNat, a, x, bs, list⟩)) ↔ Typed.Reads2930 v d P := by
        intro d P
        constructor
        · rintro ⟨list, h0, d', h1, n, ⟨rfl, h2⟩, g, h3, a, h4, x, h5, bs, h6, h7⟩
          injection h7 with h7 h8
          subst h7
          exact ⟨chainId, nonce, gasPrice, gasLimit, recipient, value, data, e1, e2, e3, e4, e5, e6, e7, h1, h2, g, l.toNat, a, x, bs, list, h3,
            (hl _).mpr rfl, h4, h5, h6, h0, h8⟩
        · rintro ⟨_, _, _, _, _, _, _, c1, c2, c3, c4, c5, c6, c7, h1, h2, g, l', a, x, bs, list, h3, h9, h4, h5, h6, h0, h8⟩
          cases e1.symm.trans c1; cases e2.symm.trans c2; cases e3.symm.trans c3; cases e4.symm.trans c4; cases e5.symm.trans c5
          cases e6.symm.trans c6; cases e7.symm.trans c7
          have := (hl _).mp h9
          subst this
          exact ⟨list, h0, d, h1, _, ⟨rfl, h2⟩, g, h3, a, h4, x, h5, bs, h6, congrArg (Prod.mk d) h8⟩
      obtain ⟨f0, h0⟩ := case_spec m w rand hrand hpanic _ _ _ hr (fun d P h => hfeas d P ((hiff d P).mp h)) v.signed
      simp only [hiff] at h0
      refine ⟨f0, fun f nf g1 g2 => ⟨fun h => absurd h hno, fun _ hc => ?_, fun _ hc => ?_⟩⟩
      · rw [e, bind_ok]; exact (h0 f nf g1 g2).1 hc
      · rw [e, bind_ok]; exact (h0 f nf g1 g2).2 hc
    · exact ⟨0, fun f nf _ _ => ⟨fun _ => by rw [e]; rfl, fun h => absurd hno h, fun h => absurd hno h⟩⟩
    · refine ⟨0, fun f nf _ _ => ⟨fun h => absurd h hno, fun _ hc => ?_, fun _ _ => by rw [e]; rfl⟩⟩
      obtain ⟨d, P, T, ⟨_, _, _, _, _, _, _, -, -, -, c4, -, -, -, -, -, g, l', a, x, bs, list, -, h9, -⟩, -⟩ := hc
      cases e4.symm.trans c4
      exact absurd h9 (hl _)

/-- C94: one vector of the fourth test. -/
theorem case_1559 (v : Typed) (hv : Typed.Fair Typed.Reads1559 v) :
    CaseRuns (fun f nf => case1559 m w f nf rand) Typed.Ignored1559 (Claims Typed.Reads1559 Typed.signed) v := by
  obtain ⟨hneg, hneg', hfeas⟩ := hv
  by_cases hmiss : v.type ≠ 2 ∨ v.chainId = none ∨ v.nonce = none ∨ v.maxPriorityFee = none ∨ v.maxFee = none ∨ v.gasLimit = none ∨
      v.recipient = none ∨ v.value = none ∨ v.data = none
  · have hi : Typed.Ignored1559 v := by
      unfold Typed.Ignored1559
      tauto
    refine ⟨0, fun f nf _ _ => ⟨fun _ => ?_, fun h => absurd hi h, fun h => absurd hi h⟩⟩
    show case1559 m w f nf rand v = .ok false
    unfold case1559
    by_cases ht : v.type ≠ 2
    · rw [if_pos ht]
    · rw [if_neg ht]
      split
      · rename_i e1 e2 e3 e3' e4 e5 e6 e7
        simp [e1, e2, e3, e3', e4, e5, e6, e7, ht] at hmiss
      · rfl
  · simp only [not_or, not_not, ← ne_eq, Option.ne_none_iff_exists'] at hmiss
    obtain ⟨ht, ⟨chainId, e1⟩, ⟨nonce, e2⟩, ⟨mp, e3⟩, ⟨mf, e3'⟩, ⟨gasLimit, e4⟩, ⟨recipient, e5⟩, ⟨value, e6⟩, ⟨data, e7⟩⟩ := hmiss
    have hign : Typed.Ignored1559 v ↔ NoLimit gasLimit := by
      simp [Typed.Ignored1559, e1, e2, e3, e3', e4, e5, e6, e7, ht]
    have hcase : ∀ f nf, case1559 m w f nf rand v = (do
        match ← gasLimitOf gasLimit with
        | none => return false
        | some limit => do
          let (key, b) ← read1559 m w v chainId nonce mp mf recipient value data limit
          finish m w f nf rand .eip1559 b key v.signed
          return true) := by
      intro f nf
      unfold case1559
      rw [if_neg (by simp [ht]), e1, e2, e3, e3', e4, e5, e6, e7]
      rfl
    unfold CaseRuns
    simp only [hign, hcase]
    rcases gasLimit_reads gasLimit with ⟨l, e, hno, hl⟩ | ⟨e, hno⟩ | ⟨e, hno, hl⟩
    · have hr := reads_1559 m w v chainId nonce mp mf recipient value data l (fun t z => hneg _ t z (.inr (.inl e3)))
        (fun t z => hneg _ t z (.inr (.inr e3'))) (fun z => hneg' _ z e6)
      have hiff : ∀ d P, (∃ list, List.Forall₂ AccessText (v.accessList.getD []) list ∧ ∃ d', KeyText v.key d' ∧
          ∃ n, (n = nonce.toNat ∧ n < 2 ^ 64 - 1) ∧ ∃ g, FeeText mp g ∧ ∃ g', FeeText mf g' ∧ ∃ a, AddressText recipient a ∧
          ∃ x : Nat, WeiText value x ∧ ∃ bs, DataText data bs ∧ (d, P) = (d', .eip1559 ⟨chainId.toNat, n, g, g', l.toNat, a, x, bs, list⟩)) ↔
          Typed.Reads1559 v d P := by
        intro d P
        constructor
        · rintro ⟨list, h0, d', h1, n, ⟨rfl, h2⟩, g, h3, g', h3', a, h4, x, h5, bs, h6, h7⟩
          injection h7 with h7 h8
          subst h7
          exact ⟨chainId, nonce, mp, mf, gasLimit, recipient, value, data, e1, e2, e3, e3', e4, e5, e6, e7, h1, h2, g, g', l.toNat, a, x, bs, list,
            h3, h3', (hl _).mpr rfl, h4, h5, h6, h0, h8⟩
        · rintro ⟨_, _, _, _, _, _, _, _, c1, c2, c3, c3', c4, c5, c6, c7, h1, h2, g, g', l', a, x, bs, list, h3, h3', h9, h4, h5, h6, h0, h8⟩
          cases e1.symm.trans c1; cases e2.symm.trans c2; cases e3.symm.trans c3; cases e3'.symm.trans c3'; cases e4.symm.trans c4
          cases e5.symm.trans c5; cases e6.symm.trans c6; cases e7.symm.trans c7
          have := (hl _).mp h9
          subst this
          exact ⟨list, h0, d, h1, _, ⟨rfl, h2⟩, g, h3, g', h3', a, h4, x, h5, bs, h6, congrArg (Prod.mk d) h8⟩
      obtain ⟨f0, h0⟩ := case_spec m w rand hrand hpanic _ _ _ hr (fun d P h => hfeas d P ((hiff d P).mp h)) v.signed
      simp only [hiff] at h0
      refine ⟨f0, fun f nf g1 g2 => ⟨fun h => absurd h hno, fun _ hc => ?_, fun _ hc => ?_⟩⟩
      · rw [e, bind_ok]; exact (h0 f nf g1 g2).1 hc
      · rw [e, bind_ok]; exact (h0 f nf g1 g2).2 hc
    · exact ⟨0, fun f nf _ _ => ⟨fun _ => by rw [e]; rfl, fun h => absurd hno h, fun h => absurd hno h⟩⟩
    · refine ⟨0, fun f nf _ _ => ⟨fun h => absurd h hno, fun _ hc => ?_, fun _ _ => by rw [e]; rfl⟩⟩
      obtain ⟨d, P, T, ⟨_, _, _, _, _, _, _, _, -, -, -, -, c4, -, -, -, -, -, g, g', l', a, x, bs, list, -, -, h9, -⟩, -⟩ := hc
      cases e4.symm.trans c4
      exact absurd h9 (hl _)

/-! ## The tests -/

open Classical in
/-- C94: the test for untyped transactions, with any chain id or none and any threshold: if signing has enough time, it passes exactly if every vector
that counts is right and there are enough of them; otherwise it panics. -/
theorem C94_untyped (chain : Option UInt64) (threshold : Nat) (vs : List Untyped) (hvs : ∀ v ∈ vs, Untyped.Fair (chain.map UInt64.toNat) v) :
    ∃ f0, ∀ f nf, f0 ≤ f → f0 ≤ nf → fileTest (untypedCase m w f nf rand chain) threshold vs =
      if RightFile Untyped.Ignored (Claims (Untyped.Reads (chain.map UInt64.toNat)) Untyped.signed) threshold vs then .ok () else .panic :=
  file_runs (fun f nf => untypedCase m w f nf rand chain) _ _ threshold vs fun v hv => untyped_case m w rand hrand hpanic chain v (hvs v hv)

open Classical in
/-- C94: `test_signing_transaction_legacy`. -/
theorem C94_legacy (vs : List Untyped) (hvs : ∀ v ∈ vs, Untyped.Fair none v) :
    ∃ f0, ∀ f nf, f0 ≤ f → f0 ≤ nf → legacyTest m w f nf rand vs =
      if RightFile Untyped.Ignored (Claims (Untyped.Reads none) Untyped.signed) 900 vs then .ok () else .panic :=
  C94_untyped m w rand hrand hpanic none 900 vs hvs

open Classical in
/-- C94: `test_signing_transaction_eip_155_with_chain_id_5`. -/
theorem C94_eip155 (vs : List Untyped) (hvs : ∀ v ∈ vs, Untyped.Fair (some 5) v) :
    ∃ f0, ∀ f nf, f0 ≤ f → f0 ≤ nf → eip155Test m w f nf rand vs =
      if RightFile Untyped.Ignored (Claims (Untyped.Reads (some 5)) Untyped.signed) 900 vs then .ok () else .panic :=
  C94_untyped m w rand hrand hpanic (some 5) 900 vs hvs

open Classical in
/-- C94: `test_signing_transaction_eip_2930`. -/
theorem C94_eip2930 (vs : List Typed) (hvs : ∀ v ∈ vs, Typed.Fair Typed.Reads2930 v) :
    ∃ f0, ∀ f nf, f0 ≤ f → f0 ≤ nf → eip2930Test m w f nf rand vs =
      if RightFile Typed.Ignored2930 (Claims Typed.Reads2930 Typed.signed) 500 vs then .ok () else .panic :=
  file_runs (fun f nf => case2930 m w f nf rand) _ _ 500 vs fun v hv => case_2930 m w rand hrand hpanic v (hvs v hv)

open Classical in
/-- C94: `test_signing_transaction_eip_1559`. -/
theorem C94_eip1559 (vs : List Typed) (hvs : ∀ v ∈ vs, Typed.Fair Typed.Reads1559 v) :
    ∃ f0, ∀ f nf, f0 ≤ f → f0 ≤ nf → eip1559Test m w f nf rand vs =
      if RightFile Typed.Ignored1559 (Claims Typed.Reads1559 Typed.signed) 500 vs then .ok () else .panic :=
  file_runs (fun f nf => case1559 m w f nf rand) _ _ 500 vs fun v hv => case_1559 m w rand hrand hpanic v (hvs v hv)

end

end LCT.Props
