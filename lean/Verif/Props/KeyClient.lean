import Verif.Spec.KeyClient
import Verif.Props.Client
import Verif.Props.Sec1Error
import Verif.Props.Recovery
import Verif.Props.Equality
import Verif.Props.Defaults
import Verif.Lemmas.Crypto.Fuel
import Verif.Props.Keys

/-!
# Every program that uses keys and signatures computes ECDSA (C88)
-/

namespace LCT.Props
open LCT.Spec LCT.Out LCT.BigInt LCT.Crypto LCT.Random LCT.Hash

section
variable (w : Nat) (cp : Params) (n : Nat) {p : Nat} {a b : Int}

/-- The library's objects stand for what mathematics says the client holds. -/
structure KeyMatches (xs : Objects) (x : Holds p a b) : Prop where
  numbers : Matches w xs.numbers x.numbers
  secrets : List.Forall₂ (fun (k : PrivateKey) (d : Nat) => k.params = cp ∧ Denotes w k.data (d : Int) ∧ 0 < d ∧ d < n) xs.secrets x.secrets
  keys : List.Forall₂ (fun (k : PublicKey) Q => k.params = cp ∧ PointDenotes w k.data Q ∧ Q ≠ 0) xs.keys x.keys
  signatures : List.Forall₂ (fun (s : Signature) (rs : Nat × Nat) => s.params = cp ∧ Denotes w s.r (rs.1 : Int) ∧ Denotes w s.s (rs.2 : Int) ∧
    InRange n rs.1 rs.2) xs.signatures x.signatures

end

theorem at_all {α β : Type} {R : α → β → Prop} {xs : List α} {s : List β} (h : List.Forall₂ R xs s) {i : Nat} (hi : i < s.length) :
    ∃ x a, xs[i]? = some x ∧ s[i]? = some a ∧ R x a := by
  induction h generalizing i with
  | nil => simp at hi
  | cons h1 _ ih =>
    cases i with
    | zero => exact ⟨_, _, rfl, rfl, h1⟩
    | succ i => exact ih (by simpa using hi)

theorem append_all {α β : Type} {R : α → β → Prop} {xs xs' : List α} {s s' : List β} (h : List.Forall₂ R xs s) (h' : List.Forall₂ R xs' s') :
    List.Forall₂ R (xs ++ xs') (s ++ s') := by
  induction h with
  | nil => exact h'
  | cons h1 _ ih => exact .cons h1 ih

section Clients
variable (m : Build) (w : Nat) [hw : DigitWidth w] (cp : Params) (p n : Nat) [hpr : Fact p.Prime] (a b : Int)
  (G : (curve (a : ZMod p) (b : ZMod p)).Point) (hD : Domain w cp p n a b G) (hcof1 : cp.cofactor = 1) (hpn : p ≤ 2 * n)
  (h8 : bitLength n % 8 = 0)
  (H : Hasher) (h : List UInt8 → List UInt8) (limit : Nat) (hc : Computes H h limit) (ho : H.outLen ≤ H.blockLen) (ho0 : 0 < H.outLen)
  (f nf : Nat) (st : H.State)

/-- A call was answered as mathematics does; only signing may go on for longer than the fuel. -/
def Faithful (rand : Nat → Out RandomError (List UInt8)) (x : Holds p a b) (q : KeyRequest) (res : Out Unit (KeyReply × Objects)) : Prop :=
  (∃ r xs' x', res = .ok (r, xs') ∧ KeyIdeal H h n G rand x q (some (r, x')) ∧ KeyMatches w cp n xs' x') ∨
  (res = .panic ∧ KeyIdeal H h n G rand x q none) ∨ (res = .hang ∧ ∃ k hash o, q = .sign k hash o)

include hD hcof1 hpn h8 hc ho ho0

/-- One call. -/
theorem C88_call (rand : Nat → Out RandomError (List UInt8)) (hrand : ∀ i, rand i ≠ .panic)
    (hl : ∀ i bytes, rand i = .ok bytes → H.blockLen + H.outLen + 1 + 2 * ((bitLength n + 7) / 8) + bytes.length < limit)
    (hl0 : H.blockLen + H.outLen + 1 + 2 * ((bitLength n + 7) / 8) < limit)
    (xs : Objects) (x : Holds p a b) (hx : KeyMatches w cp n xs x) (q : KeyRequest) (hq : q.Proper x) :
    Faithful w cp p n a b G H h rand x q (keyAnswer m w H f nf st cp rand xs q) := by
  have hn0 := hD.n_prime.pos
  have hcof : cp.cofactor < 2 ^ 32 := by rw [hcof1]; decide
  have htor : ∀ Q : (curve (a : ZMod p) (b : ZMod p)).Point, n • Q = 0 := by
    intro Q
    have hcard := hD.card
    rw [hcof1, Nat.one_mul] at hcard
    rw [← hcard]
    exact card_nsmul_eq_zero'
  have hld : ∀ e i bytes, Drawn e (rand i) bytes → H.blockLen + H.outLen + 1 + 2 * ((bitLength n + 7) / 8) + bytes.length < limit := by
    intro e i bytes hb
    cases e with
    | false => have : bytes = [] := hb; subst this; simpa using hl0
    | true => exact hl i bytes hb
  cases q with
  | number q =>
    obtain ⟨hwf, hdev⟩ := hq
    obtain ⟨an, han⟩ := (C87_answers x.numbers q hwf).1 hdev
    cases an with
    | none =>
      refine .inr (.inl ⟨?_, .divisionByZero han⟩)
      simp only [keyAnswer, (C87_call m xs.numbers x.numbers hx.numbers q).2 han]
      rfl
    | some rn =>
      obtain ⟨r, ns⟩ := rn
      obtain ⟨ns', e, hm⟩ := (C87_call m xs.numbers x.numbers hx.numbers q).1 r ns han
      refine .inl ⟨_, { xs with numbers := ns' }, _, ?_, .number han, ⟨hm, hx.secrets, hx.keys, hx.signatures⟩⟩
      simp only [keyAnswer, e]
      rfl
  | privateKey i =>
    obtain ⟨y, z, ey, ez, hy⟩ := at_all hx.numbers hq
    by_cases hz : 0 < z ∧ z < n
    · obtain ⟨d, rfl⟩ : ∃ d : Nat, z = d := ⟨z.toNat, by omega⟩
      refine .inl ⟨_, { xs with secrets := xs.secrets ++ [⟨y, cp⟩] }, _, ?_, .privateKey ez (by omega) (by omega), ⟨hx.numbers, append_all hx.secrets (.cons ⟨rfl, hy, by omega, by omega⟩ .nil),
        hx.keys, hx.signatures⟩⟩
      simp only [keyAnswer, ey, unwrap, Out.bind_ok, (C24_private_key (ε := Unit) m w cp n hD.order d y hy).1 hz]
      rfl
    · refine .inl ⟨_, _, _, ?_, .noPrivateKey ez hz, hx⟩
      simp only [keyAnswer, ey, unwrap, Out.bind_ok, (C24_private_key (ε := Unit) m w cp n hD.order z y hy).2 hz]
      rfl
  | publicKey k =>
    obtain ⟨key, d, ek, ed, hk, hd, hd0, hdn⟩ := at_all hx.secrets hq
    obtain ⟨data, params⟩ := key
    subst hk
    obtain ⟨pk, e, hpk, hP, hv, -⟩ := C24_public_key_of_private (ε := Unit) m w params p n a b G hD d hd0 hdn data hd
    refine .inl ⟨_, { xs with keys := xs.keys ++ [pk] }, _, ?_, .publicKey ed, ⟨hx.numbers, hx.secrets, append_all hx.keys (.cons ⟨hpk, hP, ?_⟩ .nil), hx.signatures⟩⟩
    · simp only [keyAnswer, ek, unwrap, Out.bind_ok, e]
      rfl
    · haveI := Fact.mk hD.n_prime
      exact smul_ne_zero' hD.G_ne hD.G_order (cast_ne_zero_of_lt hd0 hdn)
  | signature i j =>
    obtain ⟨y, r, ey, er, hy⟩ := at_all hx.numbers hq.1
    obtain ⟨z, s, ez, es, hz⟩ := at_all hx.numbers hq.2
    obtain ⟨_, e, rfl⟩ := signatureNew_y (ε := Unit) m hy hz hD.order
    by_cases hrs : 0 < r ∧ r < n ∧ 0 < s ∧ s < n
    · obtain ⟨r, rfl⟩ : ∃ d : Nat, r = d := ⟨r.toNat, by omega⟩
      obtain ⟨s, rfl⟩ : ∃ d : Nat, s = d := ⟨s.toNat, by omega⟩
      rw [if_pos hrs] at e
      have hin : InRange n r s := ⟨by omega, by omega, by omega, by omega⟩
      refine .inl ⟨_, { xs with signatures := xs.signatures ++ [⟨y, z, cp⟩] }, _, ?_, .signature er es hin, ⟨hx.numbers, hx.secrets, hx.keys,
        append_all hx.signatures (.cons ⟨rfl, hy, hz, hin⟩ .nil)⟩⟩
      simp only [keyAnswer, ey, ez, unwrap, Out.bind_ok, e]
      rfl
    · rw [if_neg hrs] at e
      refine .inl ⟨_, _, _, ?_, .noSignature er es hrs, hx⟩
      simp only [keyAnswer, ey, ez, unwrap, Out.bind_ok, e]
      rfl
  | sign k hash o =>
    obtain ⟨key, d, ek, ed, hk, hd, hd0, hdn⟩ := at_all hx.secrets hq
    have hsign := C25_sign m w cp p n a b G hD H h limit hc ho ho0 d hdn key hk hd hash o (fun _ => h8) rand (hld _) f nf st _ rfl
    have hnp := C27_no_panic m w cp p n a b G hD H h limit hc ho ho0 d hd0 hdn key hk hd hash o (fun _ => h8) rand (hld _) hrand f nf st
    have hes := C27_error_source m w cp p n a b G hD H h limit hc ho ho0 d hd0 hdn key hk hd hash o (fun _ => h8) rand (hld _)
    have hok := sign_ok m w cp p n a b G hD H h limit hc ho ho0 d hd0 hdn key hk hd hash o (fun _ => h8) rand (hld _) f nf st
    simp only [keyAnswer, ek, unwrap, Out.bind_ok]
    cases hco : signingComplaint n hash o with
    | some e =>
      have : signWithOptions m w H f nf st rand hash key o = .err e := by
        unfold signingComplaint at hco
        split_ifs at hco hsign <;> cases hco <;> assumption
      refine .inl ⟨_, _, _, ?_, .signComplaint ed hco, hx⟩
      rw [this]
      rfl
    | none =>
      have hchk : hash ≠ [] ∧ (o.strictHashByteLength = true → hash.length * 8 = bitLength n) ∧
          (o.isZeroHashAllowed = false → leadingBits (bitLength n) hash ≠ 0) := by
        unfold signingComplaint at hco
        split_ifs at hco with h1 h2 h3
        exact ⟨h1, fun h => by_contra fun h' => h2 ⟨h, h'⟩, fun h h' => h3 ⟨h, h'⟩⟩
      cases hres : signWithOptions m w H f nf st rand hash key o with
      | panic => exact absurd hres hnp
      | hang => exact .inr (.inr ⟨rfl, _, _, _, rfl⟩)
      | err e =>
        obtain ⟨hex, i, e', h1, rfl, h2⟩ := hes hchk.1 hchk.2.1 hchk.2.2 f nf st e hres
        exact .inl ⟨_, _, _, rfl, .signRandomError ed hco hex h2 h1, hx⟩
      | ok r =>
        obtain ⟨sig, id⟩ := r
        obtain ⟨-, -, -, j, k, hnon, hk0, hkn, hus, ⟨h1, h2, h3, h4⟩, hbad⟩ := hok sig id hres
        have hlow : lowered o.enforceLowS n (ecdsaS n G d (leadingBits (bitLength n) hash) k) =
            lowS o.enforceLowS n (ecdsaS n G d (leadingBits (bitLength n) hash) k) := by
          unfold lowered lowS
          simp only [Nat.not_le]
        rw [hlow] at h3 h4
        haveI := Fact.mk hD.n_prime
        have hin : InRange n (ecdsaR n G k) (lowS o.enforceLowS n (ecdsaS n G d (leadingBits (bitLength n) hash) k)) := by
          obtain ⟨h5, h6⟩ := not_or.mp hus
          have h7 : ecdsaR n G k < n := Nat.mod_lt _ hn0
          have h8 : ecdsaS n G d (leadingBits (bitLength n) hash) k < n := ZMod.val_lt _
          refine ⟨by omega, h7, ?_⟩
          unfold lowS
          split <;> omega
        exact .inl ⟨_, { xs with signatures := xs.signatures ++ [sig] }, _, rfl, .sign ed hco hbad hnon hus h4,
          ⟨hx.numbers, hx.secrets, hx.keys, append_all hx.signatures (.cons ⟨h1, h2, h3, hin⟩ .nil)⟩⟩
  | verify q s hash o =>
    obtain ⟨pk, Q, ek, eq, hk, hQ, hQ0⟩ := at_all hx.keys hq.1
    obtain ⟨sig, ⟨r, t⟩, es, et, hs, hr, ht, hr0, hrn, ht0, htn⟩ := at_all hx.signatures hq.2
    have hv := C25_verify m w cp p n a b G hD sig hs r t hr0 ht0 htn hr ht pk hk Q hQ (htor Q) hash o (fun _ => h8) _ rfl
    simp only [keyAnswer, ek, es, unwrap, Out.bind_ok]
    cases hco : verifyingComplaint n t hash o with
    | some e =>
      have : verifyWithOptions m w hash sig pk o = .err e := by
        unfold verifyingComplaint at hco
        split_ifs at hco hv <;> cases hco <;> assumption
      refine .inl ⟨_, _, _, ?_, .verifyComplaint eq et hco, hx⟩
      rw [this]
      rfl
    | none =>
      have hv : (EcdsaVerifies n G Q (leadingBits (bitLength n) hash) r t → verifyWithOptions m w hash sig pk o = .ok true) ∧
          (¬ EcdsaVerifies n G Q (leadingBits (bitLength n) hash) r t → verifyWithOptions m w hash sig pk o = .ok false) := by
        unfold verifyingComplaint at hco
        split_ifs at hco hv
        exact hv
      by_cases he : EcdsaVerifies n G Q (leadingBits (bitLength n) hash) r t
      · exact .inl ⟨_, _, _, by rw [hv.1 he]; rfl, .verified eq et hco he, hx⟩
      · exact .inl ⟨_, _, _, by rw [hv.2 he]; rfl, .refuted eq et hco he, hx⟩
  | recover s hash id o =>
    obtain ⟨sig, ⟨r, t⟩, es, et, hs, hr, ht, hr0, hrn, ht0, htn⟩ := at_all hx.signatures hq
    have he := C23_errors m w cp p n a b G hD hcof sig hs r t hr0 hrn ht0 htn hr ht hash id o (fun _ => h8) _ rfl
    simp only [keyAnswer, es, unwrap, Out.bind_ok]
    cases hco : recoveryComplaint n hash o with
    | some e =>
      have : recoverWithOptions m w sig hash id o = .err e := by
        unfold recoveryComplaint at hco
        split_ifs at hco he <;> cases hco <;> assumption
      refine .inl ⟨_, _, _, ?_, .recoverComplaint et hco, hx⟩
      rw [this]
      rfl
    | none =>
      have hchk : hash ≠ [] ∧ (o.strictHashByteLength = true → hash.length * 8 = bitLength n) ∧ leadingBits (bitLength n) hash ≠ 0 := by
        unfold recoveryComplaint at hco
        split_ifs at hco with h1 h2 h3
        exact ⟨h1, fun h => by_contra fun h' => h2 ⟨h, h'⟩, h3⟩
      obtain ⟨keys, e, Qs, hall, hnd, hmem⟩ := C23_exact m w cp p n a b G hD hcof sig hs r t hr0 hrn ht0 htn hr ht hash id o (fun _ => h8)
        hcof1 hpn hchk.1 hchk.2.1 hchk.2.2
      have hkeys : List.Forall₂ (fun (k : PublicKey) Q => k.params = cp ∧ PointDenotes w k.data Q ∧ Q ≠ 0) keys Qs := by
        have hne : ∀ Q ∈ Qs, Q ≠ 0 := fun Q hQ => ((hmem Q).mp hQ).1
        clear hmem hnd e
        induction hall with
        | nil => exact .nil
        | cons h1 _ ih =>
          exact .cons ⟨h1.1, h1.2, hne _ (List.mem_cons_self ..)⟩ (ih fun Q hQ => hne Q (List.mem_cons_of_mem _ hQ))
      refine .inl ⟨_, { xs with keys := xs.keys ++ keys }, _, ?_, .recovered et hco hnd hmem,
        ⟨hx.numbers, hx.secrets, append_all hx.keys hkeys, hx.signatures⟩⟩
      rw [e, ← hall.length_eq]
      rfl
  | signatureText s =>
    obtain ⟨sig, ⟨r, t⟩, es, et, hs, hr, ht, hr0, hrn, ht0, htn⟩ := at_all hx.signatures hq
    refine .inl ⟨_, _, _, ?_, .signatureText et, hx⟩
    simp only [keyAnswer, es, unwrap, Out.bind_ok, (C18_round_trip (ε := Unit) m w cp n hD.order sig hs r t hr ht hr0 hrn ht0 htn).1]
    rfl
  | parseSignature t =>
    rcases C18_decode (ε := Unit) m w cp n hD.order hn0 t _ rfl with ⟨hbad, e⟩ | ⟨r, s, hr, hs, ht, e⟩
    · exact .inl ⟨_, _, _, by simp only [keyAnswer, e]; rfl, .badFormat hbad, hx⟩
    · by_cases hin : InRange n r s
      · rw [if_pos (show 0 < r ∧ r < n ∧ 0 < s ∧ s < n from hin)] at e
        obtain ⟨sig, e, h1, h2, h3, -⟩ := e
        exact .inl ⟨_, { xs with signatures := xs.signatures ++ [sig] }, _, by simp only [keyAnswer, e]; rfl, .parseSignature ht hin,
          ⟨hx.numbers, hx.secrets, hx.keys, append_all hx.signatures (.cons ⟨h1, h2, h3, hin⟩ .nil)⟩⟩
      · rw [if_neg (show ¬ (0 < r ∧ r < n ∧ 0 < s ∧ s < n) from hin)] at e
        exact .inl ⟨_, _, _, by simp only [keyAnswer, e]; rfl, .outOfRange hr hs ht hin, hx⟩
  | keyText q c =>
    obtain ⟨pk, Q, ek, eq, hk, hQ, hQ0⟩ := at_all hx.keys hq
    by_cases hin : InRange n (xCoord Q) (yCoord Q)
    · obtain ⟨h1, h2, h3, h4⟩ := hin
      refine .inl ⟨_, _, _, ?_, .keyText eq ⟨h1, h2, h3, h4⟩, hx⟩
      simp only [keyAnswer, ek, unwrap, Out.bind_ok,
        (C19_round_trip_partial (ε := Unit) m w cp p n a b G hD pk hk Q hQ hQ0 (htor Q) h1 h2 h3 h4 c).1]
      rfl
    · refine .inr (.inl ⟨?_, .noKeyText eq hin⟩)
      simp only [keyAnswer, ek, unwrap, Out.bind_ok, (C19_panics (ε := Unit) m w cp p n a b G hD pk hk Q hQ c).mpr hin]
      rfl
  | parseKey t =>
    rcases C20_valid m w cp p n a b G hD t with ⟨e, he⟩ | ⟨hev, -⟩ | ⟨pk, e, hk, u, v, hu, hv, hup, hvp, -, hns, -⟩
    · refine .inl ⟨_, xs, _, ?_, .parseNoKey fun Q hQ0 hQ => ?_, hx⟩
      · simp only [keyAnswer, he, C20_error m w cp p n a b G hD t e he]
        rfl
      · obtain ⟨pk, e', -⟩ := (C20_accepts_iff m w cp p n a b G hD t Q).mpr ⟨hQ0, htor Q, hQ⟩
        rw [he] at e'
        cases e'
    · rw [hcof1] at hev; cases hev
    · have hP : PointDenotes w pk.data (WeierstrassCurve.Affine.Point.some _ _ hns : (curve (a : ZMod p) (b : ZMod p)).Point) := by
        refine ⟨?_, ?_⟩
        · rw [ZMod.val_cast_of_lt hup]; exact hu
        · rw [ZMod.val_cast_of_lt hvp]; exact hv
      obtain ⟨h0, -, ht⟩ := (C20_accepts_iff m w cp p n a b G hD t _).mp ⟨pk, e, hP⟩
      exact .inl ⟨_, { xs with keys := xs.keys ++ [pk] }, _, by simp only [keyAnswer, e]; rfl, .parseKey h0 ht,
        ⟨hx.numbers, hx.secrets, append_all hx.keys (.cons ⟨hk, hP, h0⟩ .nil), hx.signatures⟩⟩
  | sameKey q q' =>
    obtain ⟨k, Q, ek, eq, hk, hQ, hQ0⟩ := at_all hx.keys hq.1
    obtain ⟨k', Q', ek', eq', hk', hQ', hQ0'⟩ := at_all hx.keys hq.2
    have hself : ∀ {y : BInt} {z : Int}, Denotes w y z → SameInt w w y y := fun h => ⟨_, h, h⟩
    have hpar : SameParams w w cp cp := ⟨⟨hself hD.curve.a, hself hD.curve.b, hself hD.curve.p⟩,
      ⟨hself (point_x hD.base).1, hself (point_x hD.base).2⟩, hself hD.order, rfl⟩
    have hs : ∀ {k : PublicKey} {Q : (curve (a : ZMod p) (b : ZMod p)).Point}, k.params = cp → PointDenotes w k.data Q → SamePublic w w k k :=
      fun hk hQ => ⟨⟨hself (point_x hQ).1, hself (point_x hQ).2⟩, by rw [hk]; exact hpar⟩
    obtain ⟨r, e, hr⟩ := C84_public m w k k' (hs hk hQ) (hs hk' hQ')
    have hiff : SamePublic w w k k' ↔ Q = Q' := by
      constructor
      · rintro ⟨⟨⟨z1, h1, h1'⟩, ⟨z2, h2, h2'⟩⟩, -⟩
        have hX : (xCoord Q : Int) = xCoord Q' := by rw [← (point_x hQ).1.2, ← (point_x hQ').1.2, h1.2, h1'.2]
        have hY : (yCoord Q : Int) = yCoord Q' := by rw [← (point_x hQ).2.2, ← (point_x hQ').2.2, h2.2, h2'.2]
        cases Q with
        | zero => exact absurd rfl hQ0
        | some u v hns =>
          cases Q' with
          | zero => exact absurd rfl hQ0'
          | some u' v' hns' =>
            have hu : u = u' := ZMod.val_injective p (by exact_mod_cast hX)
            have hv : v = v' := ZMod.val_injective p (by exact_mod_cast hY)
            subst hu hv
            rfl
      · rintro rfl
        exact ⟨⟨⟨_, (point_x hQ).1, (point_x hQ').1⟩, ⟨_, (point_x hQ).2, (point_x hQ').2⟩⟩, by rw [hk, hk']; exact hpar⟩
    rw [hiff] at hr
    have e' : keyAnswer m w H f nf st cp rand xs (.sameKey q q') = .ok (.truth r, xs) := by
      simp only [keyAnswer, ek, ek', unwrap, Out.bind_ok, e]
      rfl
    cases r with
    | true =>
      have := hr.mp rfl
      subst this
      exact .inl ⟨_, _, _, e', .same eq eq', hx⟩
    | false => exact .inl ⟨_, _, _, e', .different eq eq' (fun h => Bool.false_ne_true (hr.mpr h)), hx⟩

/-- Signing returns, for all sufficiently large amounts of fuel, if mathematics answers. -/
theorem sign_returns (rand : Nat → Out RandomError (List UInt8))
    (hl : ∀ i bytes, rand i = .ok bytes → H.blockLen + H.outLen + 1 + 2 * ((bitLength n + 7) / 8) + bytes.length < limit)
    (hl0 : H.blockLen + H.outLen + 1 + 2 * ((bitLength n + 7) / 8) < limit)
    (xs : Objects) (x : Holds p a b) (hx : KeyMatches w cp n xs x) (i : Nat) (hash : List UInt8) (o : SigningOptions) (hprop : i < x.secrets.length)
    (an : Option (KeyReply × Holds p a b)) (han : KeyIdeal H h n G rand x (.sign i hash o) an) :
    ∃ f1, ∀ f nf, f1 ≤ f → f1 ≤ nf → keyAnswer m w H f nf st cp rand xs (.sign i hash o) ≠ .hang := by
  obtain ⟨key, d, ek, ed, hkey, hd, hd0, hdn⟩ := at_all hx.secrets hprop
  have hld : ∀ e j bytes, Drawn e (rand j) bytes →
      H.blockLen + H.outLen + 1 + 2 * ((bitLength n + 7) / 8) + bytes.length < limit := by
    intro e i bytes hb
    cases e with
    | false => have : bytes = [] := hb; subst this; simpa using hl0
    | true => exact hl i bytes hb
  have hchk : signingComplaint n hash o = none → hash ≠ [] ∧ (o.strictHashByteLength = true → hash.length * 8 = bitLength n) ∧
      (o.isZeroHashAllowed = false → leadingBits (bitLength n) hash ≠ 0) := by
    intro hco
    unfold signingComplaint at hco
    split_ifs at hco with h1 h2 h3
    exact ⟨h1, fun h => by_contra fun h' => h2 ⟨h, h'⟩, fun h h' => h3 ⟨h, h'⟩⟩
  suffices hs : ∃ f1, ∀ f nf, f1 ≤ f → f1 ≤ nf → signWithOptions m w H f nf st rand hash key o ≠ .hang by
    obtain ⟨f1, hf1⟩ := hs
    refine ⟨f1, fun f nf h1 h2 => ?_⟩
    simp only [keyAnswer, ek, unwrap, Out.bind_ok]
    have := hf1 f nf h1 h2
    cases hr : signWithOptions m w H f nf st rand hash key o with
    | hang => exact absurd hr this
    | _ => exact nofun
  cases han with
  | signComplaint hd' hco =>
    refine ⟨0, fun f nf _ _ => ?_⟩
    have hsign := C25_sign m w cp p n a b G hD H h limit hc ho ho0 d hdn key hkey hd hash o (fun _ => h8) rand (hld _) f nf st _ rfl
    unfold signingComplaint at hco
    split_ifs at hco hsign <;> first | (rw [hsign]; nofun) | cases hco
  | @sign _ d' _ _ j kk id hd' hco hbad hnon hus hid =>
    rw [ed] at hd'
    cases hd'
    obtain ⟨f1, hf1⟩ := C27_progress m w cp p n a b G hD H h limit hc ho ho0 d hd0 hdn key hkey hd hash o (fun _ => h8) rand
      (hld _) (hchk hco).1 (hchk hco).2.1 (hchk hco).2.2 j kk hbad hnon hus
    refine ⟨f1, fun f nf h1 h2 => ?_⟩
    obtain ⟨sig, id', e', -⟩ := hf1 f nf st h1 h2
    rw [e']
    nofun
  | @signRandomError _ d' _ _ j er hd' hco hex hbad hr =>
    rw [ed] at hd'
    cases hd'
    obtain ⟨f1, hf1⟩ := C27_random_error m w cp p n a b G hD H h limit hc ho ho0 d hd0 hdn key hkey hd hash o (fun _ => h8) rand
      (hld _) (hchk hco).1 (hchk hco).2.1 (hchk hco).2.2 hex j er hbad hr
    refine ⟨f1, fun f nf h1 h2 => ?_⟩
    rw [hf1 f nf st h1 h2]
    nofun

variable (env : Nat → Nat → Out RandomError (List UInt8)) (henv : ∀ i j, env i j ≠ .panic)
  (hl : ∀ i j bytes, env i j = .ok bytes → H.blockLen + H.outLen + 1 + 2 * ((bitLength n + 7) / 8) + bytes.length < limit)
  (hl0 : H.blockLen + H.outLen + 1 + 2 * ((bitLength n + 7) / 8) < limit)
  (c : KeyClient) (hfit : ∀ rs (x : Holds p a b), KeyRun H h n G c env rs x → (c rs).Proper x)
include henv hl hl0 hfit

/-- C88, for any number of calls of any client: the replies are replies that mathematics gives, and the objects stand for what it says; or the
client panics, at a call where mathematics says so; or signing used up its fuel (see `C88_answered`).

Missing for the full property: mathematics would not panic when it writes a public key with a coordinate that is zero or not below the order
(`C88_violated`), and nothing is said about clients that make calls on which numbers deviate (C04, C08). -/
theorem C88_client_partial (k : Nat) :
    (∃ rs xs x, keySession m w H f nf st cp env c k = .ok (rs, xs) ∧ rs.length = k ∧ KeyRun H h n G c env rs x ∧ KeyMatches w cp n xs x) ∨
    (keySession m w H f nf st cp env c k = .panic ∧ ∃ rs x, rs.length < k ∧ KeyRun H h n G c env rs x ∧
      KeyIdeal H h n G (env rs.length) x (c rs) none) ∨
    (keySession m w H f nf st cp env c k = .hang ∧ ∃ rs x, rs.length < k ∧ KeyRun H h n G c env rs x ∧ ∃ i hash o, c rs = .sign i hash o) := by
  induction k with
  | zero => exact .inl ⟨[], _, _, rfl, rfl, .start, ⟨.nil, .nil, .nil, .nil⟩⟩
  | succ k ih =>
    rcases ih with ⟨rs, xs, x, e, hk, hrun, hm⟩ | ⟨e, rs, x, hk, hrun, hp⟩ | ⟨e, rs, x, hk, hrun, hp⟩
    · have hcall := C88_call m w cp p n a b G hD hcof1 hpn h8 H h limit hc ho ho0 f nf st (env rs.length) (henv _) (hl _) hl0 xs x hm (c rs)
        (hfit rs x hrun)
      have estep : keySession m w H f nf st cp env c (k + 1) = do
          let (r, x) ← keyAnswer m w H f nf st cp (env rs.length) xs (c rs)
          return (rs ++ [r], x) := by
        show (do let (rs, x) ← keySession m w H f nf st cp env c k; _) = _
        rw [e]
        rfl
      rw [estep]
      rcases hcall with ⟨r, xs', x', e', hi, hm'⟩ | ⟨e', hi⟩ | ⟨e', hi⟩
      · exact .inl ⟨rs ++ [r], xs', x', by rw [e']; rfl, by rw [List.length_append, hk]; rfl, .call hrun hi, hm'⟩
      · exact .inr (.inl ⟨by rw [e']; rfl, rs, x, by omega, hrun, hi⟩)
      · exact .inr (.inr ⟨by rw [e']; rfl, rs, x, by omega, hrun, hi⟩)
    · refine .inr (.inl ⟨?_, rs, x, by omega, hrun, hp⟩)
      show (do let (rs, x) ← keySession m w H f nf st cp env c k; _) = _
      rw [e]
      rfl
    · refine .inr (.inr ⟨?_, rs, x, by omega, hrun, hp⟩)
      show (do let (rs, x) ← keySession m w H f nf st cp env c k; _) = _
      rw [e]
      rfl

/-- If mathematics answers every call that the client comes to make, the library does, for all sufficiently large amounts of fuel. -/
theorem C88_answered (k : Nat) (hans : ∀ rs (x : Holds p a b), KeyRun H h n G c env rs x → rs.length < k →
      ∃ an, KeyIdeal H h n G (env rs.length) x (c rs) an) :
    ∃ f0, ∀ f nf, f0 ≤ f → f0 ≤ nf → keySession m w H f nf st cp env c k ≠ .hang := by
  have mono : ∀ k f f' nf nf', f ≤ f' → nf ≤ nf' →
      Upto (keySession m w H f nf st cp env c k) (keySession m w H f' nf' st cp env c k) := by
    intro k f f' nf nf' h1 h2
    induction k with
    | zero => exact .refl _
    | succ k ih =>
      show Upto (do let (rs, x) ← keySession m w H f nf st cp env c k; _) (do let (rs, x) ← keySession m w H f' nf' st cp env c k; _)
      refine ih.bind fun rx => Upto.bind ?_ fun _ => .refl _
      cases c rx.1 with
      | sign i hash o =>
        refine (Upto.refl _).bind fun key => ?_
        rcases sign_upto m w H h1 h2 st (env rx.1.length) hash key o with e | e
        · rw [e]; exact .inl rfl
        · rw [e]; exact .refl _
      | _ => exact .refl _
  induction k with
  | zero => exact ⟨0, fun _ _ _ _ => nofun⟩
  | succ k ih =>
    obtain ⟨f0, hf0⟩ := ih fun rs x hrun hk => hans rs x hrun (by omega)
    have hsame : ∀ f nf, f0 ≤ f → f0 ≤ nf → keySession m w H f nf st cp env c k = keySession m w H f0 f0 st cp env c k := by
      intro f nf h1 h2
      rcases mono k f0 f f0 nf h1 h2 with e | e
      · exact absurd e (hf0 f0 f0 (Nat.le_refl _) (Nat.le_refl _))
      · exact e.symm
    have estep : ∀ f nf, f0 ≤ f → f0 ≤ nf → keySession m w H f nf st cp env c (k + 1) = do
        let (rs, x) ← keySession m w H f0 f0 st cp env c k
        let (r, x) ← keyAnswer m w H f nf st cp (env rs.length) x (c rs)
        return (rs ++ [r], x) := by
      intro f nf h1 h2
      rw [← hsame f nf h1 h2]
      rfl
    rcases C88_client_partial m w cp p n a b G hD hcof1 hpn h8 H h limit hc ho ho0 f0 f0 st env henv hl hl0 c hfit k with
      ⟨rs, xs, x, e, hk, hrun, hm⟩ | ⟨e, -⟩ | ⟨e, -⟩
    · have key : ∃ f1, ∀ f nf, f1 ≤ f → f1 ≤ nf → keyAnswer m w H f nf st cp (env rs.length) xs (c rs) ≠ .hang := by
        have hother : (∀ i hash o, c rs ≠ .sign i hash o) →
            ∃ f1, ∀ f nf, f1 ≤ f → f1 ≤ nf → keyAnswer m w H f nf st cp (env rs.length) xs (c rs) ≠ .hang := by
          intro hno
          refine ⟨0, fun f nf _ _ => ?_⟩
          rcases C88_call m w cp p n a b G hD hcof1 hpn h8 H h limit hc ho ho0 f nf st (env rs.length) (henv _) (hl _) hl0 xs x hm (c rs)
            (hfit rs x hrun) with ⟨r, xs', x', e', -⟩ | ⟨e', -⟩ | ⟨-, i, hash, o, e'⟩
          · rw [e']; nofun
          · rw [e']; nofun
          · exact absurd e' (hno i hash o)
        cases hq : c rs with
        | sign i hash o =>
          obtain ⟨an, han⟩ := hans rs x hrun (by omega)
          have hprop := hfit rs x hrun
          rw [hq] at han hprop
          exact sign_returns m w cp p n a b G hD hcof1 hpn h8 H h limit hc ho ho0 st (env rs.length) (hl _) hl0 xs x hm i hash o hprop an han
        | _ => rw [← hq]; exact hother (by rw [hq]; nofun)
      obtain ⟨f1, hf1⟩ := key
      refine ⟨max f0 f1, fun f nf h1 h2 => ?_⟩
      rw [estep f nf (by omega) (by omega), e]
      have := hf1 f nf (by omega) (by omega)
      simp only [Out.bind_ok]
      cases hr : keyAnswer m w H f nf st cp (env rs.length) xs (c rs) with
      | hang => exact absurd hr this
      | _ => exact nofun
    · refine ⟨f0, fun f nf h1 h2 => ?_⟩
      rw [estep f nf h1 h2, e]
      nofun
    · exact absurd e (hf0 f0 f0 (Nat.le_refl _) (Nat.le_refl _))

end Clients

/-- C88 for the built-in curve and SHA-256, without assumptions about the curve and the hash function; the operating system delivers 32 random
bytes at a time, or an error. -/
theorem C88_default_partial (m : Build) (w : Nat) [DigitWidth w] (st : Sha2.Sha256.State) : ∃ cp, (secp256k1 w : Out Unit _) = .ok cp ∧
    ∀ (env : Nat → Nat → Out RandomError (List UInt8)) (c : KeyClient),
    (∀ i j, env i j ≠ .panic) → (∀ i j bytes, env i j = .ok bytes → bytes.length = 32) →
    (∀ rs (x : Holds Secp256k1.p 0 7), KeyRun Sha2.Sha256 Sha2.sha256 Secp256k1.n LCT.Secp256k1.G c env rs x → (c rs).Proper x) →
    ∀ k,
      (∀ f nf,
        (∃ rs xs x, keySession m w Sha2.Sha256 f nf st cp env c k = .ok (rs, xs) ∧ rs.length = k ∧
          KeyRun Sha2.Sha256 Sha2.sha256 Secp256k1.n LCT.Secp256k1.G c env rs x ∧ KeyMatches w cp Secp256k1.n xs x) ∨
        (keySession m w Sha2.Sha256 f nf st cp env c k = .panic ∧ ∃ rs x, rs.length < k ∧
          KeyRun Sha2.Sha256 Sha2.sha256 Secp256k1.n LCT.Secp256k1.G c env rs x ∧
          KeyIdeal Sha2.Sha256 Sha2.sha256 Secp256k1.n LCT.Secp256k1.G (env rs.length) x (c rs) none) ∨
        (keySession m w Sha2.Sha256 f nf st cp env c k = .hang ∧ ∃ rs x, rs.length < k ∧
          KeyRun Sha2.Sha256 Sha2.sha256 Secp256k1.n LCT.Secp256k1.G c env rs x ∧ ∃ i hash o, c rs = .sign i hash o)) ∧
      ((∀ rs (x : Holds Secp256k1.p 0 7), KeyRun Sha2.Sha256 Sha2.sha256 Secp256k1.n LCT.Secp256k1.G c env rs x → rs.length < k →
          ∃ an, KeyIdeal Sha2.Sha256 Sha2.sha256 Secp256k1.n LCT.Secp256k1.G (env rs.length) x (c rs) an) →
        ∃ f0, ∀ f nf, f0 ≤ f → f0 ≤ nf → keySession m w Sha2.Sha256 f nf st cp env c k ≠ .hang) := by
  obtain ⟨cp, ecp, hD, hcof⟩ := secp256k1_y (ε := Unit) w
  refine ⟨cp, ecp, fun env c henv hlen hfit k => ?_⟩
  have hl : ∀ i j bytes, env i j = .ok bytes →
      Sha2.Sha256.blockLen + Sha2.Sha256.outLen + 1 + 2 * ((bitLength Secp256k1.n + 7) / 8) + bytes.length < 2 ^ 61 := by
    intro i j bytes hb
    rw [bitLength_n, hlen i j bytes hb]
    decide
  have hl0 : Sha2.Sha256.blockLen + Sha2.Sha256.outLen + 1 + 2 * ((bitLength Secp256k1.n + 7) / 8) < 2 ^ 61 := by
    rw [bitLength_n]
    decide
  exact ⟨fun f nf => C88_client_partial m w cp Secp256k1.p Secp256k1.n 0 7 LCT.Secp256k1.G hD hcof (by decide +kernel) (by rw [bitLength_n])
      Sha2.Sha256 Sha2.sha256 (2 ^ 61) Hash.Sha2.computes256 (by decide) (by decide) f nf st env henv hl hl0 c hfit k,
    C88_answered m w cp Secp256k1.p Secp256k1.n 0 7 LCT.Secp256k1.G hD hcof (by decide +kernel) (by rw [bitLength_n])
      Sha2.Sha256 Sha2.sha256 (2 ^ 61) Hash.Sha2.computes256 (by decide) (by decide) st env henv hl hl0 c hfit k⟩

/-- C88 is violated by a client on secp256k1 that reads a public key, whose abscissa is the group order, and writes it again: it panics. -/
theorem C88_violated (m : Build) (w : Nat) [DigitWidth w] (f nf : Nat) (st : Sha2.Sha256.State) (env : Nat → Nat → Out RandomError (List UInt8)) :
    ∃ cp, (secp256k1 w : Out Unit _) = .ok cp ∧ ∃ t, ∀ compressed,
      keySession m w Sha2.Sha256 f nf st cp env (fun rs => [.parseKey t].getD rs.length (.keyText 0 compressed)) 1 ≠ .panic ∧
      keySession m w Sha2.Sha256 f nf st cp env (fun rs => [.parseKey t].getD rs.length (.keyText 0 compressed)) 2 = .panic := by
  obtain ⟨cp, ecp, hD, hcof⟩ := secp256k1_y (ε := Unit) w
  let Q : LCT.Secp256k1.E.Point := WeierstrassCurve.Affine.Point.some _ _ big_nonsingular
  have hQ0 : Q ≠ 0 := WeierstrassCurve.Affine.Point.some_ne_zero _
  have hQn : Secp256k1.n • Q = 0 := by
    have := card_nsmul_eq_zero' (G := LCT.Secp256k1.E.Point) (x := Q)
    rwa [LCT.Secp256k1.card_points] at this
  have hx : xCoord Q = bigX := bigX_val
  have hy : yCoord Q = bigY := bigY_val
  have ht : IsUncompressed Secp256k1.n (uncompressedText Secp256k1.n Q) Q := by
    refine ⟨by rw [hx]; decide +kernel, by rw [hy]; decide +kernel, ?_⟩
    unfold uncompressedText fixedHex lower
    rw [List.map_append, List.map_append, lower_hexOf, lower_hexOf]
    rfl
  obtain ⟨pk, e, hpk⟩ := (C20_accepts_iff m w cp _ _ 0 7 _ hD (uncompressedText Secp256k1.n Q) Q).mpr ⟨hQ0, hQn, .inl ht⟩
  have hpar : pk.params = cp := by
    rcases C20_valid m w cp _ _ 0 7 _ hD (uncompressedText Secp256k1.n Q) with ⟨_, e'⟩ | ⟨-, e'⟩ | ⟨pk', e', hp, -⟩
    · rw [e] at e'; cases e'
    · rw [e] at e'; cases e'
    · rw [e] at e'; cases e'; exact hp
  refine ⟨cp, ecp, uncompressedText Secp256k1.n Q, fun compressed => ?_⟩
  have h1 : keySession m w Sha2.Sha256 f nf st cp env
      (fun rs => [.parseKey (uncompressedText Secp256k1.n Q)].getD rs.length (.keyText 0 compressed)) 1 = .ok ([.done], ⟨[], [], [pk], []⟩) := by
    simp only [keySession, keyAnswer, List.getD, List.length_nil, List.getElem?_cons_zero, Option.getD_some, e, reply, Out.bind_ok]
    rfl
  refine ⟨by rw [h1]; nofun, ?_⟩
  have h2 : (pk.toSec1Hex m w compressed : Out Unit _) = .panic := by
    refine (C19_panics m w cp _ _ 0 7 _ hD pk hpar Q hpk compressed).mpr ?_
    rintro ⟨-, h, -⟩
    rw [hx] at h
    exact absurd h (by decide)
  rw [keySession, h1]
  show ((pk.toSec1Hex m w compressed).bind _ : Out Unit _).bind _ = _
  rw [h2]
  rfl

/-- A client that makes a private key from the number 5, and if it gets one, takes its public key. -/
def exampleClient : KeyClient
  | [] => .number (.unsigned 5)
  | [.number .number] => .privateKey 0
  | [.number .number, .some true] => .publicKey 0
  | _ => .parseKey []

/-- The hypothesis of `C88_client_partial` about the client is met by this one, and mathematics answers all its calls; so the library does, and the
key it holds after three calls is the point `5 • G`. -/
example (m : Build) (w : Nat) [DigitWidth w] (st : Sha2.Sha256.State) : ∃ cp, (secp256k1 w : Out Unit _) = .ok cp ∧
    ∃ f xs, keySession m w Sha2.Sha256 f f st cp (fun _ _ => .ok (List.replicate 32 0)) exampleClient 3 =
      .ok ([.number .number, .some true, .done], xs) ∧ List.Forall₂ (fun (k : PublicKey) Q => PointDenotes w k.data Q) xs.keys [5 • LCT.Secp256k1.G] := by
  obtain ⟨cp, ecp, hall⟩ := C88_default_partial m w st
  refine ⟨cp, ecp, ?_⟩
  set env : Nat → Nat → Out RandomError (List UInt8) := fun _ _ => .ok (List.replicate 32 0) with henv
  have inv : ∀ rs (x : Holds Secp256k1.p 0 7), KeyRun Sha2.Sha256 Sha2.sha256 Secp256k1.n LCT.Secp256k1.G exampleClient env rs x →
      (rs.length = 0 → rs = [] ∧ x = ⟨[], [], [], []⟩) ∧
      (rs.length = 1 → rs = [.number .number] ∧ x = ⟨[5], [], [], []⟩) ∧
      (rs.length = 2 → rs = [.number .number, .some true] ∧ x = ⟨[5], [5], [], []⟩) ∧
      (rs.length = 3 → rs = [.number .number, .some true, .done] ∧ x = ⟨[5], [5], [5 • LCT.Secp256k1.G], []⟩) := by
    intro rs x hrun
    induction hrun with
    | start => simp
    | @call rs x r x' hrun hi ih =>
      obtain ⟨h0, h1, h2, h3⟩ := ih
      refine ⟨fun h => by simp at h, fun h => ?_, fun h => ?_, fun h => ?_⟩
      · obtain ⟨rfl, rfl⟩ := h0 (by simpa using h)
        cases hi with
        | number hi => cases hi; exact ⟨rfl, rfl⟩
      · obtain ⟨rfl, rfl⟩ := h1 (by simpa using h)
        cases hi with
        | @privateKey _ d hd => 
          have hd' : (5 : Int) = (d : Int) := by simpa using hd
          obtain rfl : d = 5 := by omega
          exact ⟨rfl, rfl⟩
        | @noPrivateKey _ z hd hno =>
          have hd' : (5 : Int) = z := by simpa using hd
          subst hd'
          exact absurd ⟨by decide, by decide⟩ hno
      · obtain ⟨rfl, rfl⟩ := h2 (by simpa using h)
        cases hi with
        | @publicKey _ d hd =>
          have hd' : 5 = d := by simpa using hd
          subst hd'
          exact ⟨rfl, rfl⟩
  have hfit : ∀ rs (x : Holds Secp256k1.p 0 7), KeyRun Sha2.Sha256 Sha2.sha256 Secp256k1.n LCT.Secp256k1.G exampleClient env rs x →
      (exampleClient rs).Proper x := by
    intro rs x hrun
    obtain ⟨h0, h1, h2, h3⟩ := inv rs x hrun
    unfold exampleClient
    split
    · exact ⟨by show 5 < 2 ^ 128; decide, nofun⟩
    · obtain ⟨-, rfl⟩ := h1 rfl
      exact Nat.one_pos
    · obtain ⟨-, rfl⟩ := h2 rfl
      exact Nat.one_pos
    · trivial
  have hprog := hall env exampleClient (fun _ _ => nofun) (by rintro i j bytes h; cases h; rfl) hfit 3
  obtain ⟨f0, hf0⟩ := hprog.2 (by
    intro rs x hrun hk
    obtain ⟨h0, h1, h2, h3⟩ := inv rs x hrun
    have : rs.length = 0 ∨ rs.length = 1 ∨ rs.length = 2 := by omega
    rcases this with h | h | h
    · obtain ⟨rfl, rfl⟩ := h0 h
      exact ⟨_, .number (.unsigned (by decide))⟩
    · obtain ⟨rfl, rfl⟩ := h1 h
      exact ⟨_, .privateKey (d := 5) rfl (by decide) (by decide)⟩
    · obtain ⟨rfl, rfl⟩ := h2 h
      exact ⟨_, .publicKey rfl⟩)
  rcases hprog.1 f0 f0 with ⟨rs, xs, x, e, hk, hrun, hm⟩ | ⟨-, rs, x, hk, hrun, hp⟩ | ⟨e, -⟩
  · obtain ⟨rfl, rfl⟩ := (inv rs x hrun).2.2.2 hk
    exact ⟨f0, xs, e, hm.keys.imp fun _ _ h => h.2.1⟩
  · obtain ⟨h0, h1, h2, h3⟩ := inv rs x hrun
    have : rs.length = 0 ∨ rs.length = 1 ∨ rs.length = 2 := by omega
    rcases this with h | h | h
    · obtain ⟨rfl, rfl⟩ := h0 h
      cases hp with
      | divisionByZero hp => cases hp
    · obtain ⟨rfl, rfl⟩ := h1 h
      cases hp
    · obtain ⟨rfl, rfl⟩ := h2 h
      cases hp
  · exact absurd e (hf0 f0 f0 (Nat.le_refl _) (Nat.le_refl _))

end LCT.Props
