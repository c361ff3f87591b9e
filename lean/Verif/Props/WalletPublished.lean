import Verif.Props.WalletClient
import Verif.Props.Published

/-!
# A client that makes the transaction printed in EIP-155 (C90)

A concrete client that meets the hypotheses of C90: it makes a private key from 32 bytes, fills in a transaction, builds it, signs it and encodes it.
The standards answer all its calls, so the library does; its last reply is the transaction printed in EIP-155.
-/

namespace LCT.Props
open LCT.Spec LCT.Spec.Eth LCT.Out LCT.BigInt LCT.Crypto LCT.Random LCT.Hash LCT.Ethereum LCT.Rlp

/-- A text of digits, the first of which is not `0`, is one amount of Wei. -/
theorem wei_digits {s : List UInt8} {ds : List Nat} (hs : DigitText 11 s ds) (h0 : s.head? ≠ some 48) (z : Int) :
    WeiText s z ↔ z = (horner 10 ds : Int) := by
  constructor
  · rintro (⟨t, rfl, -⟩ | ⟨rfl, -⟩ | ⟨pre, body, ds', sg, rfl, hsg, hd, rfl⟩)
    · exact absurd rfl h0
    · exact absurd rfl hs.1
    · have hno : ∀ c : UInt8, digitVal c = none → ∀ t, pre ++ body ≠ c :: t := by
        intro c hc t h
        have := hs.2.1
        rw [h, List.map_cons, hc] at this
        cases ds <;> simp at this
      cases hsg with
      | none =>
        have h := hs.2.1.symm.trans hd.2.1
        rw [List.map_inj_right (fun _ _ h => Option.some.inj h)] at h
        rw [h, one_mul]
      | plus => exact absurd rfl (hno 43 (by decide) body)
      | minus => exact absurd rfl (hno 45 (by decide) body)
  · rintro rfl
    exact .inr (.inr ⟨[], s, ds, 1, rfl, .none, hs, (one_mul _).symm⟩)

theorem address_text_unique {s a b : List UInt8} (ha : AddressText s a) (hb : AddressText s b) : a = b := by
  obtain ⟨-, h, rfl, -, -, e⟩ := ha
  obtain ⟨-, h', e0, -, -, e'⟩ := hb
  cases e0
  exact Codecs.hexOf_injective (e.symm.trans e')

namespace Published

/-- `20000000000` -/
def priceText : List UInt8 := 50 :: List.replicate 10 48
/-- `1000000000000000000` -/
def amountText : List UInt8 := 49 :: List.replicate 18 48
/-- `0x` and 40 times `3` or `5`, in turn -/
def destinationText : List UInt8 := 48 :: 120 :: hexOf (List.replicate 20 0x35)

theorem price_iff (z : Int) : WeiText priceText z ↔ z = 20000000000 := by
  rw [wei_digits (s := priceText) (ds := 2 :: List.replicate 10 0) ⟨nofun, by decide, by decide⟩ (by decide)]
  rw [show horner 10 (2 :: List.replicate 10 0) = 20000000000 by decide]
  rfl

theorem amount_iff (z : Int) : WeiText amountText z ↔ z = 1000000000000000000 := by
  rw [wei_digits (s := amountText) (ds := 1 :: List.replicate 18 0) ⟨nofun, by decide, by decide⟩ (by decide)]
  rw [show horner 10 (1 :: List.replicate 18 0) = 1000000000000000000 by decide]
  rfl

theorem destination_text : AddressText destinationText (List.replicate 20 0x35) :=
  ⟨rfl, _, rfl, by decide, hexOf_digits _, lower_hexOf _⟩

theorem secret_value : ofBE (List.replicate 32 0x46) = d := by decide +kernel

/-- The calls of the client. -/
def script (o : SigningOptions) : List WalletRequest :=
  [.secret (List.replicate 32 0x46) rfl, .draft, .setChainId 0 1, .setNonce 0 9, .setWei 0 .gasPrice priceText, .setGasLimit 0 21000,
    .setDestination 0 destinationText, .setWei 0 .amount amountText, .build 0 .eip155, .sign 0 0 o, .encode 0]

def client (o : SigningOptions) : WalletClient := fun rs => (script o).getD rs.length .draft

/-- What it sees. -/
def replies : List WalletReply :=
  [.some true, .done, .done, .some true, .some true, .done, .some true, .some true, .some true, .done, .bytes transaction]

/-- What it holds after a number of calls. -/
def stage : Nat → Wallet
  | 0 => ⟨⟨[], [], [], []⟩, [], [], []⟩
  | 1 => ⟨⟨[], [d], [], []⟩, [], [], []⟩
  | 2 => ⟨⟨[], [d], [], []⟩, [⟨none, none, none, none, none, none, none, none, none, none⟩], [], []⟩
  | 3 => ⟨⟨[], [d], [], []⟩, [⟨some 1, none, none, none, none, none, none, none, none, none⟩], [], []⟩
  | 4 => ⟨⟨[], [d], [], []⟩, [⟨some 1, some 9, none, none, none, none, none, none, none, none⟩], [], []⟩
  | 5 => ⟨⟨[], [d], [], []⟩, [⟨some 1, some 9, some 20000000000, none, none, none, none, none, none, none⟩], [], []⟩
  | 6 => ⟨⟨[], [d], [], []⟩, [⟨some 1, some 9, some 20000000000, none, none, some 21000, none, none, none, none⟩], [], []⟩
  | 7 => ⟨⟨[], [d], [], []⟩,
      [⟨some 1, some 9, some 20000000000, none, none, some 21000, some (List.replicate 20 0x35), none, none, none⟩], [], []⟩
  | 8 => ⟨⟨[], [d], [], []⟩,
      [⟨some 1, some 9, some 20000000000, none, none, some 21000, some (List.replicate 20 0x35), some 1000000000000000000, none, none⟩], [], []⟩
  | 9 => ⟨⟨[], [d], [], []⟩, [Draft.empty], [.eip155 exampleFields], []⟩
  | _ => ⟨⟨[], [d], [], []⟩, [Draft.empty], [.eip155 exampleFields], [.eip155 exampleFields 37 r s]⟩

theorem wire_eq : Signed.wire (.eip155 exampleFields 37 r s) = transaction := transaction_eq

theorem describes_of {p n : Nat} [Fact p.Prime] {W : WeierstrassCurve.Affine (ZMod p)} {G Q R : W.Point} {e r s : Nat}
    (hR : ((e : ZMod n) * (s : ZMod n)⁻¹).val • G + ((r : ZMod n) * (s : ZMod n)⁻¹).val • Q = R) (hx : xCoord R < n) (hy : yCoord R % 2 = 0)
    (id : RecoveryId) : IdDescribes n G Q e r s id ↔ idOdd id = false ∧ idHigh id = false := by
  unfold IdDescribes
  simp only [hR, hy, Nat.zero_ne_one, decide_false, Nat.not_le.mpr hx]
  exact And.comm

theorem describes (id : RecoveryId) :
    IdDescribes Secp256k1.n LCT.Secp256k1.G (d • LCT.Secp256k1.G) e r s id ↔ idOdd id = false ∧ idHigh id = false :=
  describes_of point_eq (by rw [coords_k.1]; decide) (by rw [coords_k.2]; decide) id

theorem signing_is (rand : Nat → Out RandomError (List UInt8)) (o : SigningOptions) (ho : o.employExtraRandomData = false)
    (an : Option (KeyReply × Holds Secp256k1.p 0 7)) :
    EthKeyIdeal rand ⟨[], [d], [], []⟩ (.sign 0 (Sha3.keccak256 (Payload.eip155 exampleFields).preimage) o) an ↔
      ∃ id, idOdd id = false ∧ idHigh id = false ∧ an = .some (.signed id, ⟨[], [d], [], [(r, s)]⟩) := by
  rw [preimage_eq, hash_eq]
  have hlead : leadingBits (bitLength Secp256k1.n) (octets 32 e) = e := by decide +kernel
  have hlen : (octets 32 e).length = 32 := by decide
  have hne : octets 32 e ≠ [] := by intro h; rw [h] at hlen; cases hlen
  have hc : signingComplaint Secp256k1.n (octets 32 e) o = none := by
    rw [signingComplaint, if_neg hne, hlead, hlen, bitLength_n, if_neg (fun h => absurd h.2 (by decide)), if_neg (fun h => absurd h.2 (by decide))]
  have hs : ∀ low, lowS low Secp256k1.n s = s := fun low => if_neg fun h => absurd h.2 (by decide)
  have hus : ¬ Unusable Secp256k1.n LCT.Secp256k1.G d e k := by rw [Unusable, r_eq, s_eq]; decide
  have hnon := nonce
  have hid := describes
  have hse := s_eq
  have hre := r_eq
  clear hne hlen
  generalize octets 32 e = hash at *
  constructor
  · intro h
    cases h with
    | signComplaint _ h => rw [hc] at h; cases h
    | signRandomError _ _ h => rw [ho] at h; cases h
    | @sign _ d' _ _ j k' id hd _ hfr hk hu hi =>
      cases hd
      rw [ho] at hfr hk
      obtain rfl := C26_unique _ _ _ _ _ _ _ _ _ hk (hnon (rand j))
      rw [hlead, hse, hre, hs] at hi ⊢
      exact ⟨id, ((hid id).mp hi).1, ((hid id).mp hi).2, rfl⟩
  · rintro ⟨id, h1, h2, rfl⟩
    have := KeyIdeal.sign (H := Sha2.Sha256) (h := Sha2.sha256) (n := Secp256k1.n) (G := LCT.Secp256k1.G) (rand := rand)
      (x := ⟨[], [d], [], []⟩) (i := 0) (d := d) (hash := hash) (o := o) (j := 0) (k := k) (id := id) rfl hc
      (fun i hi => absurd hi (Nat.not_lt_zero i)) (by rw [ho]; exact hnon (rand 0)) (by rw [hlead]; exact hus)
      (by rw [hlead, hse, hre, hs]; exact (hid id).mpr ⟨h1, h2⟩)
    rw [hlead, hse, hre, hs] at this
    exact this

/-- In every run the client gets these replies and holds these things. -/
theorem run_is (m : Build) (env : Nat → Nat → Out RandomError (List UInt8)) (o : SigningOptions) (ho : o.employExtraRandomData = false)
    (rs : List WalletReply) (x : Wallet) (h : WalletRun m (client o) env rs x) :
    rs.length ≤ 11 → rs = replies.take rs.length ∧ x = stage rs.length := by
  induction h with
  | start => exact fun _ => ⟨rfl, rfl⟩
  | @call rs x r' x' hrun hi ih =>
    intro hl
    rw [List.length_append] at hl ⊢
    replace hl : rs.length < 11 := by simpa using hl
    obtain ⟨h1, h2⟩ := ih (by omega)
    unfold client at hi
    generalize rs.length = i at *
    subst h1 h2
    rcases i with _ | _ | _ | _ | _ | _ | _ | _ | _ | _ | _ | i
    · cases hi with
      | secret _ _ => rw [secret_value]; exact ⟨rfl, rfl⟩
      | noSecret h => rw [secret_value] at h; exact absurd h (by decide)
    · cases hi with
      | draft => exact ⟨rfl, rfl⟩
    · cases hi with
      | setChainId h => cases h; exact ⟨rfl, rfl⟩
    · cases hi with
      | setNonce h _ => cases h; exact ⟨rfl, rfl⟩
      | noNonce _ h => exact absurd h (by decide)
    · cases hi with
      | @setWei _ _ _ _ n h hw =>
        cases h
        obtain rfl : n = 20000000000 := by have := (price_iff n).mp hw; omega
        exact ⟨rfl, rfl⟩
      | noWei _ h => exact absurd ((price_iff _).mpr rfl) (h _)
    · cases hi with
      | setGasLimit h => cases h; exact ⟨rfl, rfl⟩
    · cases hi with
      | setDestination h hw =>
        cases h
        obtain rfl := address_text_unique hw destination_text
        exact ⟨rfl, rfl⟩
      | noDestination _ h => exact absurd destination_text (h _)
    · cases hi with
      | @setWei _ _ _ _ n h hw =>
        cases h
        obtain rfl : n = 1000000000000000000 := by have := (amount_iff n).mp hw; omega
        exact ⟨rfl, rfl⟩
      | noWei _ h => exact absurd ((amount_iff _).mpr rfl) (h _)
    · cases hi with
      | build h hP => cases h; cases hP; exact ⟨rfl, rfl⟩
      | missing h hP => cases h; cases hP
    · cases hi with
      | sign h hk hr =>
        cases h
        obtain ⟨id, h1, -, e⟩ := (signing_is _ o ho _).mp hk
        cases e
        cases hr
        rw [h1]
        exact ⟨rfl, rfl⟩
      | notSigned h hk =>
        cases h
        obtain ⟨id, h1, -, e⟩ := (signing_is _ o ho _).mp hk
        cases e
    · cases hi with
      | encode h =>
        cases h
        rw [wire_eq]
        exact ⟨rfl, rfl⟩
    · omega

end Published

/-- C90: the hypotheses of `C90_client_partial` and `C90_answered` are met by this client.  So for all sufficiently large amounts of fuel it sees
these replies, of which the last one is the transaction printed in EIP-155, whatever the options other than extra random data. -/
theorem C90_published (m : Build) (w : Nat) [DigitWidth w] (cp : Params) (hcp : (secp256k1 w : Out Unit _) = .ok cp)
    (env : Nat → Nat → Out RandomError (List UInt8)) (henv : ∀ i j, env i j ≠ .panic)
    (hlen : ∀ i j bytes, env i j = .ok bytes → bytes.length = 32) (o : SigningOptions) (ho : o.employExtraRandomData = false) :
    ∃ f0, ∀ f nf, f0 ≤ f → f0 ≤ nf → ∃ xs, walletSession m w f nf cp env (Published.client o) 11 = .ok (Published.replies, xs) := by
  have hrun := Published.run_is m env o ho
  have hafter : ∀ rs : List WalletReply, 11 ≤ rs.length → Published.client o rs = .draft := by
    intro rs h
    unfold Published.client
    rw [List.getD, List.getElem?_eq_none h]
    rfl
  have hfit : ∀ rs x, WalletRun m (Published.client o) env rs x → (Published.client o rs).Proper x := by
    intro rs x h
    by_cases hl : rs.length < 11
    · obtain ⟨-, rfl⟩ := hrun rs x h (by omega)
      unfold Published.client
      generalize rs.length = i at hl
      rcases i with _ | _ | _ | _ | _ | _ | _ | _ | _ | _ | _ | i
      · trivial
      · trivial
      · exact Nat.one_pos
      · exact Nat.one_pos
      · exact ⟨Nat.one_pos, fun z hz => by rw [(Published.price_iff z).mp hz]; decide⟩
      · exact Nat.one_pos
      · exact Nat.one_pos
      · exact ⟨Nat.one_pos, fun z hz => by rw [(Published.amount_iff z).mp hz]; decide⟩
      · exact Nat.one_pos
      · exact ⟨Nat.one_pos, _, rfl, by rw [Published.preimage_eq]; decide⟩
      · exact ⟨_, rfl, by rw [Published.wire_eq]; decide⟩
      · omega
    · rw [hafter rs (by omega)]
      trivial
  have hans : ∀ rs x, WalletRun m (Published.client o) env rs x → rs.length < 11 →
      ∃ an, WalletIdeal m (env rs.length) x (Published.client o rs) an := by
    intro rs x h hl
    obtain ⟨-, rfl⟩ := hrun rs x h (by omega)
    unfold Published.client
    generalize rs.length = i at hl
    rcases i with _ | _ | _ | _ | _ | _ | _ | _ | _ | _ | _ | i
    · exact ⟨_, .secret (by rw [Published.secret_value]; decide) (by rw [Published.secret_value]; decide)⟩
    · exact ⟨_, .draft⟩
    · exact ⟨_, .setChainId rfl⟩
    · exact ⟨_, .setNonce rfl (by decide)⟩
    · exact ⟨_, .setWei (n := 20000000000) rfl ((Published.price_iff _).mpr rfl)⟩
    · exact ⟨_, .setGasLimit rfl⟩
    · exact ⟨_, .setDestination rfl Published.destination_text⟩
    · exact ⟨_, .setWei (n := 1000000000000000000) rfl ((Published.amount_iff _).mpr rfl)⟩
    · exact ⟨_, .build rfl rfl⟩
    · exact ⟨_, .sign rfl ((Published.signing_is _ o ho _).mpr ⟨.LowXEvenY, rfl, rfl, rfl⟩) rfl⟩
    · exact ⟨_, .encode rfl⟩
    · omega
  obtain ⟨f0, hf0⟩ := C90_answered m w cp hcp env henv hlen _ hfit 11 hans
  refine ⟨f0, fun f nf h1 h2 => ?_⟩
  rcases C90_client_partial m w cp hcp f nf env henv hlen _ hfit 11 with ⟨rs, xs, x, e, hk, hr, -⟩ | ⟨-, rs, x, hk, hr, hp⟩ | ⟨e, -⟩
  · obtain ⟨h, -⟩ := hrun rs x hr (by omega)
    rw [hk] at h
    exact ⟨xs, by rw [e, h]; rfl⟩
  · exfalso
    obtain ⟨-, rfl⟩ := hrun rs x hr (by omega)
    unfold Published.client at hp
    generalize rs.length = i at hk hp
    rcases i with _ | _ | _ | _ | _ | _ | _ | _ | _ | _ | _ | i
    all_goals first | omega | cases hp
  · exact absurd e (hf0 f nf h1 h2)

end LCT.Props
