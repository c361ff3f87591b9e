import Verif.Lemmas.Equality
import Verif.Lemmas.TransactionTests
import Verif.Lemmas.VectorTests
import Verif.Props.Encoding
import Verif.Props.Keys
import Verif.Props.Signing
import Verif.Spec.KeyTests

/-!
# Lemmas about the tests with published keys, points and addresses
-/

namespace LCT.KeyTests
open LCT.BigInt LCT.Spec LCT.Out LCT.Modular LCT.Curve LCT.Crypto LCT.Codecs LCT.RandomTests LCT.TransactionTests LCT.VectorTests LCT.Props

/-- Reading something and going on with it. -/
theorem decides_reading {α β γ : Type} {x : Out Unit α} {R : α → β → Prop} {S : β → Prop} {f : α → Out Unit γ} {P : β → Prop}
    (h : Reading x R S) (hf : ∀ a b, S b → R a b → Decides (f a) (P b)) : Decides (x >>= f) (∃ b, S b ∧ P b) := by
  rcases h with ⟨a, b, rfl, hR, hS⟩ | ⟨rfl, hS⟩
  · refine (hf a b ((hS b).mpr rfl) hR).congr ⟨fun hp => ⟨b, (hS b).mpr rfl, hp⟩, ?_⟩
    rintro ⟨b', h1, h2⟩
    cases (hS b').mp h1
    exact h2
  · exact ⟨fun ⟨b, h, _⟩ => absurd h (hS b), fun _ => rfl⟩

theorem decides_each {α : Type} {f : α → Out Unit Unit} {P : α → Prop} (vs : List α) (h : ∀ v ∈ vs, Decides (f v) (P v)) :
    Decides (each f vs) (∀ v ∈ vs, P v) := by
  induction vs with
  | nil => exact ⟨fun _ => ⟨(), rfl⟩, fun h => absurd (fun v hv => absurd hv (List.not_mem_nil)) h⟩
  | cons v vs ih =>
    refine (Decides.bind (h v List.mem_cons_self) fun _ _ => ih fun v hv => h v (List.mem_cons_of_mem _ hv)).congr ?_
    rw [List.forall_mem_cons]

theorem decides_assert {b : Bool} {P : Prop} (h : b = true ↔ P) : Decides (rassert b : Out Unit Unit) P := by
  cases b
  · exact ⟨fun hp => absurd (h.mpr hp) (by decide), fun _ => rfl⟩
  · exact ⟨fun _ => ⟨(), rfl⟩, fun hp => absurd (h.mp rfl) hp⟩

theorem decides_panic {α : Type} {P : Prop} (h : ¬ P) : Decides (.panic : Out Unit α) P := ⟨fun hp => absurd hp h, fun _ => rfl⟩

section
variable {m : Build} {w : Nat} [hw : DigitWidth w]

theorem number_reads (t : List UInt8) : Reading (unwrapped (BInt.fromHex w t)) (fun x z => Denotes w x z) (NumberText t) := by
  have hiff : ∀ z, (∃ x, BInt.fromHex w t = .ok x ∧ Denotes w x z) ↔ (t = [] ∧ z = 0) ∨ HexNumeral t z := by
    obtain ⟨k, hk, rfl⟩ := hw.bytes
    exact C07_parse_iff k hk t
  have hret : (∃ x, BInt.fromHex w t = .ok x ∧ WF w x) ∨ ∃ e, BInt.fromHex w t = .err e := by
    obtain ⟨k, hk, rfl⟩ := hw.bytes
    exact fromHex_wf hk t
  rcases hret with ⟨x, e, hx⟩ | ⟨e', e⟩
  · refine .inl ⟨x, toInt w x, by rw [e]; rfl, ⟨hx, rfl⟩, fun z => ⟨fun h => ?_, ?_⟩⟩
    · obtain ⟨x', e1, hx'⟩ := (hiff z).mpr h
      rw [e] at e1
      cases e1
      exact hx'.2.symm
    · rintro rfl
      exact (hiff _).mp ⟨x, e, hx, rfl⟩
  · refine .inr ⟨by rw [e]; rfl, fun z h => ?_⟩
    obtain ⟨x', e1, -⟩ := (hiff z).mpr h
    rw [e] at e1
    cases e1

theorem decimal_reads (t : List UInt8) : Reading (unwrapped (BInt.fromStrRadix m w t 10)) (fun x z => Denotes w x z) (DecimalText t) := by
  have hiff : ∀ z, (∃ x, BInt.fromStrRadix m w t 10 = .ok x ∧ Denotes w x z) ↔ (t = [] ∧ z = 0) ∨ SignedNumeral 10 11 t z := by
    obtain ⟨k, hk, rfl⟩ := hw.bytes
    exact C08_accepts_iff m k hk t 10 (by decide) (by decide)
  have hret : (∃ x, BInt.fromStrRadix m w t 10 = .ok x ∧ WF w x) ∨ BInt.fromStrRadix m w t 10 = .err .InvalidInput := by
    obtain ⟨k, hk, rfl⟩ := hw.bytes
    exact fromStrRadix_wf m hk t 10 (by decide) (by decide)
  rcases hret with ⟨x, e, hx⟩ | e
  · refine .inl ⟨x, toInt w x, by rw [e]; rfl, ⟨hx, rfl⟩, fun z => ⟨fun h => ?_, ?_⟩⟩
    · obtain ⟨x', e1, hx'⟩ := (hiff z).mpr h
      rw [e] at e1
      cases e1
      exact hx'.2.symm
    · rintro rfl
      exact (hiff _).mp ⟨x, e, hx, rfl⟩
  · refine .inr ⟨by rw [e]; rfl, fun z h => ?_⟩
    obtain ⟨x', e1, -⟩ := (hiff z).mpr h
    rw [e] at e1
    cases e1

theorem pieces_read (line : List UInt8) : Reading (twoPieces line) (fun x y => x = y) (fun ab => TwoPieces line ab.1 ab.2) := by
  have hdw : ∀ a u : List UInt8, (∀ c ∈ a, c ≠ 58) → (a ++ 58 :: u).dropWhile (· != 58) = 58 :: u ∧ (a ++ 58 :: u).takeWhile (· != 58) = a := by
    intro a u h
    induction a with
    | nil => exact ⟨rfl, rfl⟩
    | cons c a ih =>
      have hc : (c != 58) = true := bne_iff_ne.mpr (h c List.mem_cons_self)
      obtain ⟨h1, h2⟩ := ih fun c hc => h c (List.mem_cons_of_mem _ hc)
      rw [List.cons_append, List.dropWhile_cons_of_pos (p := (· != 58)) hc, List.takeWhile_cons_of_pos (p := (· != 58)) hc, h1, h2]
      exact ⟨rfl, rfl⟩
  have htw : ∀ b : List UInt8, (∀ c ∈ b, c ≠ 58) → b.takeWhile (· != 58) = b := by
    intro b h
    induction b with
    | nil => rfl
    | cons c b ih =>
      rw [List.takeWhile_cons_of_pos (p := (· != 58)) (bne_iff_ne.mpr (h c List.mem_cons_self)), ih fun c hc => h c (List.mem_cons_of_mem _ hc)]
  have hno : ∀ u : List UInt8, ∀ c ∈ u.takeWhile (· != 58), c ≠ 58 := by
    intro u
    induction u with
    | nil => exact fun c hc => absurd hc (List.not_mem_nil)
    | cons x u ih =>
      intro c hc
      by_cases hx : (x != 58) = true
      · rw [List.takeWhile_cons_of_pos (p := (· != 58)) hx] at hc
        rcases List.mem_cons.mp hc with rfl | hc
        · exact bne_iff_ne.mp hx
        · exact ih c hc
      · rw [List.takeWhile_cons_of_neg (p := (· != 58)) hx] at hc
        exact absurd hc (List.not_mem_nil)
  have hhead : ∀ (u : List UInt8) x v, u.dropWhile (· != (58 : UInt8)) = x :: v → x = 58 := by
    intro u x v h
    have := List.head?_dropWhile_not (· != (58 : UInt8)) u
    rw [h] at this
    simpa using this
  unfold twoPieces
  split
  · rename_i e
    refine .inr ⟨rfl, ?_⟩
    rintro ⟨a, b⟩ ⟨ha, -, rfl | ⟨rest, rfl⟩⟩
    · rw [(hdw a _ ha).1] at e; cases e
    · rw [(hdw a _ ha).1] at e; cases e
  · rename_i x rest e
    obtain rfl := hhead _ _ _ e
    have hl : line = line.takeWhile (· != 58) ++ 58 :: rest := by
      conv_lhs => rw [← List.takeWhile_append_dropWhile (p := (· != 58)) (l := line), e]
    refine .inl ⟨_, _, rfl, rfl, ?_⟩
    rintro ⟨a, b⟩
    constructor
    · rintro ⟨ha, hb, rfl | ⟨r, rfl⟩⟩
      · obtain ⟨h1, h2⟩ := hdw a b ha
        have hr : b = rest := (List.cons.inj (h1.symm.trans e)).2
        rw [← hr, htw b hb]
        exact congrArg (·, b) h2.symm
      · obtain ⟨h1, h2⟩ := hdw a (b ++ 58 :: r) ha
        have hr : b ++ 58 :: r = rest := (List.cons.inj (h1.symm.trans e)).2
        rw [← hr, (hdw b r hb).2]
        exact congrArg (·, b) h2.symm
    · intro h
      injection h with h1 h2
      subst h1 h2
      refine ⟨hno _, hno _, ?_⟩
      rcases hr : rest.dropWhile (· != 58) with _ | ⟨y, r⟩
      · left
        have : rest = rest.takeWhile (· != 58) := by
          conv_lhs => rw [← List.takeWhile_append_dropWhile (p := (· != 58)) (l := rest), hr, List.append_nil]
        rw [← this]
        exact hl
      · right
        obtain rfl := hhead _ _ _ hr
        refine ⟨r, ?_⟩
        rw [← hr, List.takeWhile_append_dropWhile]
        exact hl

theorem pad_text {len k v : Nat} (h0 : 0 < v) (h : v < 256 ^ len) (hk : len * 2 = k) : padHex k (hexText (v : Int)) = fixedHex len v := by
  subst hk
  exact padHex_text h0 h

theorem checkSum_some {x : BInt} {cp : Params} {n : Nat} {z : Int} (hx : Denotes w x z) (h0 : 0 < z) (hn : z < n) (h256 : n < 256 ^ 32)
    (expected : Option (List UInt8)) : Decides (checkSum m w expected (some ⟨x, cp⟩)) (expected = some (fixedHex 32 z.toNat)) := by
  have e : (x.toLowerHex m w : Out Unit _) = .ok (hexText z) := by
    obtain ⟨k, hk, rfl⟩ := hw.bytes
    exact C07_print m k x z hx
  unfold checkSum
  simp only [e, bind_ok]
  obtain ⟨v, rfl⟩ := Int.eq_ofNat_of_zero_le h0.le
  have hv : v < 256 ^ 32 := lt_trans (Int.ofNat_lt.mp hn) h256
  rw [pad_text (Int.ofNat_lt.mp h0) hv rfl, Int.toNat_natCast]
  generalize fixedHex 32 v = u
  cases expected with
  | none => exact decides_panic (by simp)
  | some t =>
    show Decides (rassert (u == t)) _
    exact decides_assert ⟨fun h => by rw [eq_of_beq h], fun h => beq_iff_eq.mpr (Option.some.inj h).symm⟩

end

section
variable {m : Build} {w : Nat} [hw : DigitWidth w] {cp : Params} {p n : Nat} [hpr : Fact p.Prime] {a b : Int}
  {G : (curve (a : ZMod p) (b : ZMod p)).Point} (hD : Domain w cp p n a b G)
include hD

theorem point_cases (hodd : cp.cofactor % 2 = 1) (t : List UInt8) :
    (∃ (P : (curve (a : ZMod p) (b : ZMod p)).Point) (pk : PublicKey), PointText n t P ∧ PublicKey.fromSec1Hex m w t cp = .ok pk ∧ pk.params = cp ∧
      PointDenotes w pk.data P ∧ ∀ P' : (curve (a : ZMod p) (b : ZMod p)).Point, PointText n t P' → P' = P) ∨
    (¬ ∃ P : (curve (a : ZMod p) (b : ZMod p)).Point, PointText n t P) ∧ ∃ e, PublicKey.fromSec1Hex m w t cp = .err e := by
  have hiff := C20_accepts_iff m w cp p n a b G hD t
  rcases C20_valid m w cp p n a b G hD t with ⟨e, he⟩ | ⟨h, -⟩ | ⟨pk, e, hp, x, y, hx, hy, hxp, hyp, -, hns, -⟩
  · refine .inr ⟨?_, e, he⟩
    rintro ⟨P, hP⟩
    obtain ⟨pk, e1, -⟩ := (hiff P).mpr hP
    rw [he] at e1
    cases e1
  · omega
  · have hd : PointDenotes w pk.data (.some _ _ hns : (curve (a : ZMod p) (b : ZMod p)).Point) := by
      refine ⟨?_, ?_⟩
      · show Denotes w pk.data.x ((x : ZMod p).val : Nat)
        rw [ZMod.val_natCast_of_lt hxp]; exact hx
      · show Denotes w pk.data.y ((y : ZMod p).val : Nat)
        rw [ZMod.val_natCast_of_lt hyp]; exact hy
    refine .inl ⟨_, pk, (hiff _).mp ⟨pk, e, hd⟩, e, hp, hd, fun P' h' => ?_⟩
    obtain ⟨pk', e1, hd'⟩ := (hiff P').mpr h'
    rw [e] at e1
    cases e1
    exact denotes_unique hD.b_ne hd' hd

theorem point_reads (hodd : cp.cofactor % 2 = 1) (t : List UInt8) :
    Reading (unwrapped (PublicKey.fromSec1Hex m w t cp)) (fun (pk : PublicKey) P => pk.params = cp ∧ PointDenotes w pk.data P)
      (PointText n t (W := curve (a : ZMod p) (b : ZMod p))) := by
  rcases point_cases (m := m) hD hodd t with ⟨P, pk, hP, e, h1, h2, hu⟩ | ⟨hno, e', e⟩
  · refine .inl ⟨pk, P, by rw [e]; rfl, ⟨h1, h2⟩, fun P' => ⟨hu P', ?_⟩⟩
    rintro rfl
    exact hP
  · exact .inr ⟨by rw [e]; rfl, fun P h => hno ⟨P, h⟩⟩

theorem signature_cases (t : List UInt8) :
    (∃ r s sig, SignatureText n t r s ∧ Signature.fromP1363Hex m w t cp = .ok sig ∧ sig.params = cp ∧ Denotes w sig.r r ∧ Denotes w sig.s s ∧
      ∀ r' s', SignatureText n t r' s' → r' = r ∧ s' = s) ∨
    (¬ ∃ r s, SignatureText n t r s) ∧ ∃ e, Signature.fromP1363Hex m w t cp = .err e := by
  have hn0 := hD.n_prime.pos
  rcases fromP1363Hex_cases m hD.order hn0 t with ⟨hlen, e⟩ | ⟨-, ⟨c, hcm, hch⟩, e⟩ | ⟨r, s, hr, hs, ht, -, hrest⟩
  · refine .inr ⟨?_, _, e⟩
    rintro ⟨r, s, -, -, -, -, ht⟩
    apply hlen
    have := congrArg List.length ht
    unfold p1363Text lower at this
    rw [List.length_map, List.length_append, fixedHex_length, fixedHex_length] at this
    omega
  · refine .inr ⟨?_, _, e⟩
    rintro ⟨r, s, -, -, -, -, ht⟩
    apply hch
    apply lowerChar_hex
    have hmem : lowerChar c ∈ p1363Text n r s := by
      rw [← ht]
      exact List.mem_map_of_mem hcm
    unfold p1363Text fixedHex at hmem
    rcases List.mem_append.mp hmem with h | h <;> exact hexOf_digits _ _ h
  · have uniq : ∀ r' s', SignatureText n t r' s' → r' = r ∧ s' = s := by
      rintro r' s' ⟨-, h1, -, h2, h3⟩
      rw [ht] at h3
      unfold p1363Text at h3
      obtain ⟨e1, e2⟩ := List.append_inj h3 (by rw [fixedHex_length, fixedHex_length])
      exact ⟨(fixedHex_inj hr (lt_octets_len h1) e1).symm, (fixedHex_inj hs (lt_octets_len h2) e2).symm⟩
    rcases hrest with ⟨hout, e⟩ | ⟨hin, sig, e, hp, hdr, hds⟩
    · refine .inr ⟨?_, _, e⟩
      rintro ⟨r', s', hs'⟩
      obtain ⟨rfl, rfl⟩ := uniq r' s' hs'
      exact hout ⟨hs'.1, hs'.2.1, hs'.2.2.1, hs'.2.2.2.1⟩
    · exact .inl ⟨r, s, sig, ⟨hin.1, hin.2.1, hin.2.2.1, hin.2.2.2, ht⟩, e, hp, hdr, hds, uniq⟩

theorem same_params : SameParams w w cp cp := by
  have hint : ∀ {x : BInt} {z : Int}, Denotes w x z → SameInt w w x x := fun h => ⟨_, h, h⟩
  obtain ⟨h1, h2⟩ := point_x hD.base
  exact ⟨⟨hint hD.curve.a, hint hD.curve.b, hint hD.curve.p⟩, ⟨hint h1, hint h2⟩, hint hD.order, rfl⟩

/-- Comparing public keys. -/
theorem beq_public {k k' : PublicKey} {Q Q' : (curve (a : ZMod p) (b : ZMod p)).Point} (h1 : k.params = cp) (h2 : k'.params = cp)
    (h3 : PointDenotes w k.data Q) (h4 : PointDenotes w k'.data Q') : Answers (PublicKey.beq m k k') (Q' = Q) := by
  have same : ∀ {k k' : PublicKey} {Q : (curve (a : ZMod p) (b : ZMod p)).Point}, k.params = cp → k'.params = cp → PointDenotes w k.data Q →
      PointDenotes w k'.data Q → SamePublic w w k k' := by
    intro k k' Q h1 h2 h3 h4
    exact ⟨⟨⟨_, (point_x h3).1, (point_x h4).1⟩, ⟨_, (point_x h3).2, (point_x h4).2⟩⟩, by rw [h1, h2]; exact same_params hD⟩
  obtain ⟨o, eo, ho⟩ := answers_public m w k k' (same h1 h1 h3 h3) (same h2 h2 h4 h4)
  refine ⟨o, eo, ho.trans ⟨fun h => denotes_unique hD.b_ne h4 ?_, ?_⟩⟩
  · obtain ⟨u, g1, g2⟩ := h.data.x
    obtain ⟨u', g1', g2'⟩ := h.data.y
    have e1 : u = (xCoord Q : Nat) := g1.2.symm.trans (point_x h3).1.2
    have e2 : u' = (yCoord Q : Nat) := g1'.2.symm.trans (point_x h3).2.2
    subst e1 e2
    cases Q with
    | zero => exact ⟨g2, g2'⟩
    | some _ _ _ => exact ⟨g2, g2'⟩
  · rintro rfl
    exact same h1 h2 h3 h4

end

end LCT.KeyTests
