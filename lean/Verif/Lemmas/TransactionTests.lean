import Verif.Spec.TransactionTests
import Verif.Props.WalletClient
import Verif.Props.Texts
import Verif.Props.Codecs
import Verif.Props.EthereumTypes

/-!
# Reading the texts of published transactions
-/

namespace LCT.TransactionTests
open LCT.Spec LCT.Spec.Eth LCT.Out LCT.BigInt LCT.Crypto LCT.Codecs LCT.Ethereum LCT.RandomTests LCT.TestingTools LCT.Props

/-- The program reads something that stands for the only value of which `S` holds; or it panics, and there is none. -/
def Reading {α β : Type} (x : Out Unit α) (R : α → β → Prop) (S : β → Prop) : Prop :=
  (∃ a b, x = .ok a ∧ R a b ∧ ∀ b', S b' ↔ b' = b) ∨ x = .panic ∧ ∀ b, ¬ S b

theorem Reading.bind {α β α' β' : Type} {x : Out Unit α} {R : α → β → Prop} {S : β → Prop} {f : α → Out Unit α'} {R' : α' → β' → Prop}
    {S' : β → β' → Prop} (h : Reading x R S) (h' : ∀ a b, R a b → Reading (f a) R' (S' b)) :
    Reading (x >>= f) R' (fun c => ∃ b, S b ∧ S' b c) := by
  rcases h with ⟨a, b, rfl, hR, hS⟩ | ⟨rfl, hS⟩
  · rcases h' a b hR with ⟨a', b', e, hR', hS'⟩ | ⟨e, hS'⟩
    · refine .inl ⟨a', b', e, hR', fun c => ⟨?_, ?_⟩⟩
      · rintro ⟨b1, h1, h2⟩
        cases (hS _).mp h1
        exact (hS' _).mp h2
      · rintro rfl
        exact ⟨b, (hS b).mpr rfl, (hS' _).mpr rfl⟩
    · refine .inr ⟨e, ?_⟩
      rintro c ⟨b1, h1, h2⟩
      cases (hS _).mp h1
      exact hS' _ h2
  · exact .inr ⟨rfl, fun c ⟨b, h1, _⟩ => hS b h1⟩

theorem Reading.pure {α β : Type} {R : α → β → Prop} {a : α} {b : β} (h : R a b) : Reading (.ok a) R (· = b) := .inl ⟨a, b, rfl, h, fun _ => .rfl⟩

theorem Reading.congr {α β : Type} {x : Out Unit α} {R : α → β → Prop} {S S' : β → Prop} (h : Reading x R S) (hS : ∀ b, S b ↔ S' b) :
    Reading x R S' := by
  rw [show S' = S from funext fun b => propext (hS b).symm]
  exact h

/-- A text without its first two characters. -/
theorem Reading.after2 {α β : Type} {t : List UInt8} {f : List UInt8 → Out Unit α} {R : α → β → Prop} {S : β → List UInt8 → Prop}
    (h : ∀ a b u, t = a :: b :: u → Reading (f u) R (fun x => S x u)) :
    Reading (slice2 t >>= f) R (fun x => After2 (S x) t) := by
  match t, h with
  | [], _ => exact .inr ⟨rfl, fun _ ⟨_, _, _, h, _⟩ => by cases h⟩
  | [_], _ => exact .inr ⟨rfl, fun _ ⟨_, _, _, h, _⟩ => by cases h⟩
  | a :: b :: u, h =>
    refine (h a b u rfl).congr fun x => ⟨fun hx => ⟨a, b, u, rfl, hx⟩, ?_⟩
    rintro ⟨a', b', u', e, hx⟩
    injection e with _ e
    injection e with _ e
    subst e
    exact hx

/-! ## Numbers of 64 bits -/

theorem std_digit (c : UInt8) (d : Nat) :
    (if 48 ≤ c ∧ c ≤ 57 then some (c.toNat - 48) else if 97 ≤ c ∧ c ≤ 102 then some (c.toNat - 87)
      else if 65 ≤ c ∧ c ≤ 70 then some (c.toNat - 55) else none : Option Nat) = some d ↔ digitVal c = some d ∧ d < 16 := by
  unfold digitVal
  simp only [UInt8.le_iff_toNat_le, show (48 : UInt8).toNat = 48 from rfl, show (57 : UInt8).toNat = 57 from rfl, show (97 : UInt8).toNat = 97 from rfl,
    show (102 : UInt8).toNat = 102 from rfl, show (65 : UInt8).toNat = 65 from rfl, show (70 : UInt8).toNat = 70 from rfl]
  repeat' split
  all_goals simp only [Option.some.injEq, reduceCtorEq, false_and, false_iff]
  all_goals omega

theorem std_digits_iff (s : List UInt8) (ds : List Nat) :
    (s.mapM fun c => if 48 ≤ c ∧ c ≤ 57 then some (c.toNat - 48) else if 97 ≤ c ∧ c ≤ 102 then some (c.toNat - 87)
      else if 65 ≤ c ∧ c ≤ 70 then some (c.toNat - 55) else none : Option (List Nat)) = some ds ↔
      s.map digitVal = ds.map some ∧ ∀ d ∈ ds, d < 16 := by
  induction s generalizing ds with
  | nil =>
    cases ds with
    | nil => simp
    | cons _ _ => simp
  | cons c s ih =>
    rw [List.mapM_cons]
    cases ds with
    | nil => simp [Option.bind_eq_bind, Option.bind_eq_some_iff]
    | cons d ds =>
      simp only [Option.bind_eq_bind, Option.bind_eq_some_iff, List.map_cons, List.cons.injEq, List.mem_cons, forall_eq_or_imp,
        Option.pure_def, Option.some.injEq]
      constructor
      · rintro ⟨d', h1, ds', h2, rfl, rfl⟩
        obtain ⟨h3, h4⟩ := (std_digit c d').mp h1
        obtain ⟨h5, h6⟩ := (ih ds').mp h2
        exact ⟨⟨h3, h5⟩, h4, h6⟩
      · rintro ⟨⟨h3, h5⟩, h4, h6⟩
        exact ⟨d, (std_digit c d).mpr ⟨h3, h4⟩, ds, (ih ds).mpr ⟨h5, h6⟩, rfl, rfl⟩

/-- The standard library reads what the specification says. -/
theorem std_u64 (u : List UInt8) (n : Nat) : stdParseHex 0 (2 ^ 64) u = some (n : Int) ↔ U64Text u n := by
  have go : ∀ body : List UInt8, (if body = [] then none else
      match body.mapM fun c => if 48 ≤ c ∧ c ≤ 57 then some (c.toNat - 48) else if 97 ≤ c ∧ c ≤ 102 then some (c.toNat - 87)
          else if 65 ≤ c ∧ c ≤ 70 then some (c.toNat - 55) else none with
      | none => none
      | some ds =>
        if (0 : Int) ≤ 1 * (ds.foldl (fun acc d => acc * 16 + d) 0 : Nat) ∧ 1 * ((ds.foldl (fun acc d => acc * 16 + d) 0 : Nat) : Int) < 2 ^ 64 then
          some (1 * ((ds.foldl (fun acc d => acc * 16 + d) 0 : Nat) : Int)) else none : Option Int) = some (n : Int) ↔
      ∃ ds, DigitText 16 body ds ∧ n = horner 16 ds ∧ n < 2 ^ 64 := by
    intro body
    by_cases hb : body = []
    · rw [if_pos hb]
      constructor
      · intro h; cases h
      · rintro ⟨ds, ⟨h, _⟩, _⟩; exact absurd hb h
    · rw [if_neg hb]
      split
      · rename_i hm
        constructor
        · intro h; cases h
        · rintro ⟨ds, ⟨_, h1, h2⟩, _⟩
          rw [(std_digits_iff body ds).mpr ⟨h1, h2⟩] at hm
          cases hm
      · rename_i ds hm
        obtain ⟨h1, h2⟩ := (std_digits_iff body ds).mp hm
        rw [show (ds.foldl (fun acc d => acc * 16 + d) 0 : Nat) = horner 16 ds from rfl, Int.one_mul]
        constructor
        · intro h
          by_cases hc : (0 : Int) ≤ (horner 16 ds : Nat) ∧ ((horner 16 ds : Nat) : Int) < 2 ^ 64
          · rw [if_pos hc] at h
            injection h with h
            exact ⟨ds, ⟨hb, h1, h2⟩, by omega, by omega⟩
          · rw [if_neg hc] at h
            cases h
        · rintro ⟨ds', ⟨_, h3, h4⟩, h6, h5⟩
          rw [(std_digits_iff body ds').mpr ⟨h3, h4⟩] at hm
          have hm := Option.some.inj hm
          subst hm
          rw [← h6, if_pos ⟨Int.natCast_nonneg n, by omega⟩]
  have hhead : ∀ body ds, DigitText 16 body ds → body.head? ≠ some 43 ∧ body.head? ≠ some 45 := by
    rintro body ds ⟨hne, hd, -⟩
    obtain ⟨c, rest, rfl⟩ := List.exists_cons_of_ne_nil hne
    cases ds with
    | nil => cases hd
    | cons d ds =>
      have := (List.cons.inj hd).1
      constructor <;> (intro h; injection h with h; subst h; exact absurd this (by unfold digitVal; simp))
  have key : U64Text u n ↔ ∃ body, (u = body ∨ u = 43 :: body) ∧ ∃ ds, DigitText 16 body ds ∧ n = horner 16 ds ∧ n < 2 ^ 64 := by
    constructor
    · rintro ⟨⟨pre, body, ds, sg, rfl, hs, hd, hz⟩, h45, hlt⟩
      cases hs with
      | none => exact ⟨body, .inl rfl, ds, hd, by omega, hlt⟩
      | plus => exact ⟨body, .inr rfl, ds, hd, by omega, hlt⟩
      | minus => exact absurd rfl h45
    · rintro ⟨body, rfl | rfl, ds, hd, rfl, hlt⟩
      · exact ⟨⟨[], _, ds, 1, rfl, .none, hd, by omega⟩, (hhead _ _ hd).2, hlt⟩
      · exact ⟨⟨[43], _, ds, 1, rfl, .plus, hd, by omega⟩, by simp, hlt⟩
  rw [key]
  unfold stdParseHex
  dsimp only
  split
  · rename_i body
    refine (go _).trans ?_
    constructor
    · intro h; exact ⟨body, .inr rfl, h⟩
    · rintro ⟨body', rfl | h, hx⟩
      · obtain ⟨ds, hd, _⟩ := hx
        exact absurd rfl (hhead _ _ hd).1
      · injection h with _ h; subst h; exact hx
  · rename_i body
    rw [if_neg (by decide)]
    constructor
    · intro h; cases h
    · rintro ⟨body', rfl | h, hx⟩
      · obtain ⟨ds, hd, _⟩ := hx
        exact absurd rfl (hhead _ _ hd).2
      · cases h
  · rename_i h43 h45
    refine (go _).trans ?_
    constructor
    · intro h; exact ⟨u, .inl rfl, h⟩
    · rintro ⟨body', rfl | h, hx⟩
      · exact hx
      · exact absurd h (h43 _)

theorem std_nat (u : List UInt8) (z : Int) (h : stdParseHex 0 (2 ^ 64) u = some z) : ∃ n : Nat, z = n ∧ U64Text u n := by
  have hz : 0 ≤ z := by
    unfold stdParseHex at h
    dsimp only at h
    split at h
    on_goal 2 => rw [if_neg (by decide)] at h; cases h
    all_goals
      split at h
      · cases h
      · split at h
        · cases h
        · split at h
          · rename_i hc
            injection h with h
            omega
          · cases h
  obtain ⟨n, rfl⟩ := Int.eq_ofNat_of_zero_le hz
  exact ⟨n, rfl, (std_u64 u n).mp h⟩

theorem u64_unique {u : List UInt8} {n n' : Nat} (h : U64Text u n) (h' : U64Text u n') : n' = n := by
  have := ((std_u64 u n).mpr h).symm.trans ((std_u64 u n').mpr h')
  injection this with this
  omega

/-- The gas limit. -/
theorem gasLimit_reads (t : List UInt8) :
    (∃ l, (gasLimitOf t : Out Unit _) = .ok (some l) ∧ ¬ NoLimit t ∧ ∀ n, LimitText t n ↔ n = l.toNat) ∨
    ((gasLimitOf t : Out Unit _) = .ok none ∧ NoLimit t) ∨
    ((gasLimitOf t : Out Unit _) = .panic ∧ ¬ NoLimit t ∧ ∀ n, ¬ LimitText t n) := by
  have inj : ∀ {a b a' b' : UInt8} {u u' : List UInt8}, a :: b :: u = a' :: b' :: u' → u = u' := by
    intro a b a' b' u u' e
    injection e with _ e
    injection e
  match t with
  | [] => exact .inr (.inr ⟨rfl, (fun ⟨_, _, _, h, _⟩ => by cases h), fun _ ⟨_, _, _, h, _⟩ => by cases h⟩)
  | [_] => exact .inr (.inr ⟨rfl, (fun ⟨_, _, _, h, _⟩ => by cases h), fun _ ⟨_, _, _, h, _⟩ => by cases h⟩)
  | a :: b :: u =>
    cases e : stdParseHex 0 (2 ^ 64) u with
    | some z =>
      obtain ⟨n, rfl, hn⟩ := std_nat u z e
      refine .inl ⟨UInt64.ofNat n, ?_, ?_, ?_⟩
      · simp only [gasLimitOf, slice2, bind_ok, e]; rfl
      · rintro ⟨_, _, _, h, h1, h2⟩
        cases inj h
        exact h2 n hn
      · intro n'
        rw [UInt64.toNat_ofNat', Nat.mod_eq_of_lt hn.2.2]
        constructor
        · rintro ⟨_, _, _, h, ⟨rfl, -⟩ | h1⟩
          · cases inj h
            obtain ⟨⟨pre, body, ds, sg, e1, hs, hd, -⟩, -⟩ := hn
            exact absurd (List.append_eq_nil_iff.mp e1.symm).2 hd.1
          · cases inj h
            exact u64_unique hn h1
        · rintro rfl
          exact ⟨a, b, u, rfl, .inr hn⟩
    | none =>
      have hno : ∀ k, ¬ U64Text u k := fun k hk => by
        rw [(std_u64 u k).mpr hk] at e
        cases e
      by_cases hu : u = []
      · subst hu
        refine .inl ⟨0, ?_, ?_, ?_⟩
        · simp only [gasLimitOf, slice2, bind_ok, e]; rfl
        · rintro ⟨_, _, _, h, h1, h2⟩
          cases inj h
          exact h1 rfl
        · intro n'
          constructor
          · rintro ⟨_, _, _, h, ⟨-, h1⟩ | h1⟩
            · exact h1
            · cases inj h
              exact absurd h1 (hno _)
          · rintro rfl
            exact ⟨a, b, [], rfl, .inl ⟨rfl, rfl⟩⟩
      · refine .inr (.inl ⟨?_, a, b, u, rfl, hu, hno⟩)
        simp only [gasLimitOf, slice2, bind_ok, e, if_neg hu]
        rfl

/-- The nonce of an untyped transaction. -/
theorem nonce_reads (t : List UInt8) :
    Reading (nonceOf t) (fun (x : EoaNonce) (n : Nat) => x.value.toNat = n ∧ n < 2 ^ 64 - 1) (NonceText t) := by
  have hmain : Reading (nonceOf t) (fun (x : EoaNonce) (n : Nat) => x.value.toNat = n ∧ n < 2 ^ 64 - 1)
      (fun n => After2 (fun u => (U64Text u n ∨ (∀ k, ¬ U64Text u k) ∧ n = 0) ∧ n < 2 ^ 64 - 1) t) := by
    unfold nonceOf
    refine Reading.after2 (S := fun n u => (U64Text u n ∨ (∀ k, ¬ U64Text u k) ∧ n = 0) ∧ n < 2 ^ 64 - 1) fun a b u _ => ?_
    obtain ⟨n, hv, hlt, hn⟩ : ∃ n : Nat, ((stdParseHex 0 (2 ^ 64) u).getD 0).toNat = n ∧ n < 2 ^ 64 ∧
        ∀ n', (U64Text u n' ∨ (∀ k, ¬ U64Text u k) ∧ n' = 0) ↔ n' = n := by
      cases e : stdParseHex 0 (2 ^ 64) u with
      | some z =>
        obtain ⟨n, rfl, hn⟩ := std_nat u z e
        refine ⟨n, by simp, hn.2.2, fun n' => ⟨?_, fun h => .inl (h ▸ hn)⟩⟩
        rintro (h | ⟨h, -⟩)
        · exact u64_unique hn h
        · exact absurd hn (h n)
      | none =>
        have hno : ∀ k, ¬ U64Text u k := fun k hk => by
          rw [(std_u64 u k).mpr hk] at e
          cases e
        refine ⟨0, by simp, by decide, fun n' => ⟨?_, fun h => .inr ⟨hno, h⟩⟩⟩
        rintro (h | ⟨-, h⟩)
        · exact absurd h (hno _)
        · exact h
    rw [hv]
    have hto : (UInt64.ofNat n).toNat = n := by rw [UInt64.toNat_ofNat', Nat.mod_eq_of_lt hlt]
    have hmax : UInt64.ofNat n = 0xffffffffffffffff ↔ n = 2 ^ 64 - 1 := by
      rw [← UInt64.toNat_inj, hto]
      rfl
    unfold EoaNonce.fromU64
    by_cases hm : n = 2 ^ 64 - 1
    · rw [if_pos (hmax.mpr hm)]
      refine .inr ⟨rfl, ?_⟩
      rintro n' ⟨h, h'⟩
      have := (hn n').mp h
      omega
    · rw [if_neg fun h => hm (hmax.mp h)]
      refine .inl ⟨_, n, rfl, ⟨hto, by omega⟩, fun n' => ⟨fun h => (hn n').mp h.1, fun h => ⟨(hn n').mpr h, by omega⟩⟩⟩
  refine hmain.congr fun n => ⟨?_, ?_⟩
  · rintro ⟨a, b, u, e, h1, h2⟩; exact ⟨⟨a, b, u, e, h1⟩, h2⟩
  · rintro ⟨⟨a, b, u, e, h1⟩, h2⟩; exact ⟨a, b, u, e, h1, h2⟩

/-! ## Other texts -/

theorem hexOf_inj {a b : List UInt8} (h : hexOf a = hexOf b) : a = b := by
  have h1 := (C17_decode_ok_iff (hexOf a) a).mpr
  have h2 := (C17_decode_ok_iff (hexOf a) b).mpr
  have e1 := C17_round_trip a
  have e2 := C17_round_trip b
  rw [C17_encode_spec] at e1 e2
  rw [h, e2] at e1
  injection e1 with e1
  exact e1.symm

theorem data_reads (t : List UInt8) : Reading (dataOf t) (fun x bs => x = bs) (DataText t) := by
  unfold dataOf
  refine Reading.after2 (S := fun bs u => u.length % 2 = 0 ∧ (∀ c ∈ u, IsHexDigit c) ∧ u.map lowerChar = hexOf bs) fun a b u _ => ?_
  rcases hexToBytes_returns u with ⟨bs, e⟩ | ⟨e', e⟩
  · refine .inl ⟨bs, bs, by rw [e]; rfl, rfl, fun bs' => ?_⟩
    have := C17_decode_ok_iff u bs'
    rw [e, Out.ok.injEq] at this
    exact this.symm.trans eq_comm
  · refine .inr ⟨by rw [e]; rfl, fun bs' h => ?_⟩
    have := (C17_decode_ok_iff u bs').mpr h
    rw [e] at this
    cases this

theorem address_reads (t : List UInt8) :
    Reading (unwrapped (Address.tryFromStr t)) (fun (x : Address) a => x.data = a) (AddressText t) := by
  rcases address_parse t with ⟨a, e, h⟩ | ⟨e, h⟩
  · refine .inl ⟨a, a.data, by rw [e]; rfl, rfl, fun a' => ⟨fun h' => ?_, fun h' => h' ▸ h⟩⟩
    obtain ⟨hl, h1⟩ := h'
    have := (C39_address_parse_iff t ⟨a', hl⟩).mpr h1
    rw [e] at this
    injection this with this
    rw [this]
  · exact .inr ⟨by rw [e]; rfl, h⟩

theorem storageKey_reads (t : List UInt8) :
    Reading (unwrapped (StorageKey.tryFromStr t)) (fun (x : StorageKey) a => x.data = a) (StorageText t) := by
  rcases C39_storage_key_parse_total t with ⟨a, e⟩ | e
  · refine .inl ⟨a, a.data, by rw [e]; rfl, rfl, fun a' => ⟨fun h' => ?_, fun h' => ?_⟩⟩
    · obtain ⟨hl, h1⟩ := h'
      have := (C39_storage_key_parse_iff t ⟨a', hl⟩).mpr h1
      rw [e] at this
      injection this with this
      rw [this]
    · subst h'
      exact ⟨a.len, (C39_storage_key_parse_iff t a).mp e⟩
  · refine .inr ⟨by rw [e]; rfl, fun a ⟨hl, h1⟩ => ?_⟩
    have := (C39_storage_key_parse_iff t ⟨a, hl⟩).mpr h1
    rw [e] at this
    cases this

theorem storageKeys_reads (ts : List (List UInt8)) :
    Reading (storageKeysOf ts) (fun (x : List StorageKey) ks => x.map (·.data) = ks) (List.Forall₂ StorageText ts) := by
  induction ts with
  | nil =>
    refine Reading.congr (S := (· = [])) (Reading.pure rfl) fun b => ?_
    constructor
    · rintro rfl; exact .nil
    · intro h; cases h; rfl
  | cons t ts ih =>
    refine ((storageKey_reads t).bind (S' := fun k c => ∃ ks, List.Forall₂ StorageText ts ks ∧ c = k :: ks) fun x k hk =>
      ih.bind fun xs ks hks => Reading.pure (by rw [List.map_cons, hk, hks])).congr fun c => ?_
    constructor
    · rintro ⟨k, h1, ks, h2, rfl⟩; exact .cons h1 h2
    · intro h; cases h with | cons h1 h2 => exact ⟨_, h1, _, h2, rfl⟩

theorem accessList_reads (ts : List (List UInt8 × List (List UInt8))) :
    Reading (accessListOf ts) (fun (x : AccessList) l => accesses x = l) (List.Forall₂ AccessText ts) := by
  induction ts with
  | nil =>
    refine Reading.congr (S := (· = [])) (Reading.pure rfl) fun b => ?_
    constructor
    · rintro rfl; exact .nil
    · intro h; cases h; rfl
  | cons t ts ih =>
    obtain ⟨t, ks⟩ := t
    refine ((address_reads t).bind (S' := fun a c => ∃ k, List.Forall₂ StorageText ks k ∧ ∃ l, List.Forall₂ AccessText ts l ∧ c = ⟨a, k⟩ :: l)
      fun x a ha => (storageKeys_reads ks).bind (S' := fun k c => ∃ l, List.Forall₂ AccessText ts l ∧ c = ⟨a, k⟩ :: l) fun y k hk =>
      ih.bind fun xs l hl => Reading.pure ?_).congr fun c => ?_
    · subst ha hk hl; rfl
    · constructor
      · rintro ⟨a, h1, k, h2, l, h3, rfl⟩; exact .cons ⟨h1, h2⟩ h3
      · intro h
        cases h with
        | @cons _ a _ l h1 h2 => exact ⟨a.address, h1.1, a.keys, h1.2, l, h2, rfl⟩

variable (m : Build) (w : Nat) [hw : DigitWidth w]

theorem wei_reads (t : List UInt8) (hpos : ∀ z, WeiText t z → 0 ≤ z) :
    Reading (unwrapped (Wei.tryFromStr m w t)) (fun (x : Wei) (n : Nat) => Denotes w x n) (fun n => WeiText t (n : Nat)) := by
  rcases wei_parse (w := w) m t hpos with ⟨n, x, e, hx, ht⟩ | ⟨⟨e', e⟩, h⟩
  · refine .inl ⟨x, n, by rw [e]; rfl, hx, fun n' => ⟨fun h' => ?_, fun h' => h' ▸ ht⟩⟩
    obtain ⟨k, hk, rfl⟩ := hw.bytes
    obtain ⟨x', e1, hx'⟩ := (C58_accepts_iff m k hk t n').mpr h'
    rw [e] at e1
    injection e1 with e1
    subst e1
    have := hx.2.symm.trans hx'.2
    omega
  · exact .inr ⟨by rw [e]; rfl, fun n => h n⟩

omit hw in
theorem padded_iff (t t' : List UInt8) : Padded t t' ↔ t' = byteAlignedHex t := by
  unfold Padded byteAlignedHex
  by_cases h : t.length % 2 = 0
  · rw [if_pos h]
    constructor
    · rintro (⟨_, h⟩ | ⟨h', _⟩)
      · exact h
      · omega
    · exact fun h' => .inl ⟨h, h'⟩
  · rw [if_neg h]
    have hp : [48, 120] <+: t ↔ ∃ u, t = 48 :: 120 :: u := ⟨fun ⟨u, e⟩ => ⟨u, e.symm⟩, fun ⟨u, e⟩ => ⟨u, e.symm⟩⟩
    split
    · rename_i hx
      obtain ⟨u, rfl⟩ := hp.mp hx
      constructor
      · rintro (⟨h', _⟩ | ⟨_, ⟨u', e, rfl⟩ | ⟨h', _⟩⟩)
        · exact absurd h' h
        · injection e with _ e
          injection e with _ e
          subst e
          rfl
        · exact absurd ⟨u, rfl⟩ h'
      · rintro rfl
        exact .inr ⟨by omega, .inl ⟨u, rfl, rfl⟩⟩
    · rename_i hx
      rw [hp] at hx
      constructor
      · rintro (⟨h', _⟩ | ⟨_, ⟨u', e, rfl⟩ | ⟨h', h''⟩⟩)
        · exact absurd h' h
        · exact absurd ⟨u', e⟩ hx
        · exact h''
      · rintro rfl
        exact .inr ⟨by omega, .inr ⟨hx, rfl⟩⟩

theorem fee_reads (t : List UInt8) (hpos : ∀ t' z, Padded t t' → WeiText t' z → 0 ≤ z) :
    Reading (unwrapped (Wei.tryFromStr m w (byteAlignedHex t))) (fun (x : Wei) (n : Nat) => Denotes w x n) (FeeText t) := by
  refine (wei_reads m w (byteAlignedHex t) fun z => hpos _ z ((padded_iff t _).mpr rfl)).congr fun n => ?_
  constructor
  · exact fun h => ⟨_, (padded_iff t _).mpr rfl, h⟩
  · rintro ⟨t', h1, h2⟩
    rw [(padded_iff t _).mp h1] at h2
    exact h2

theorem key_reads (cp : Params) (hn : Denotes w cp.order (Secp256k1.n : Int)) (t : List UInt8) :
    Reading (keyOf m w cp t) (fun (x : PrivateKey) (d : Nat) => x.params = cp ∧ Denotes w x.data d ∧ 0 < d ∧ d < Secp256k1.n) (KeyText t) := by
  have hmain : Reading (keyOf m w cp t) (fun (x : PrivateKey) (d : Nat) => x.params = cp ∧ Denotes w x.data d ∧ 0 < d ∧ d < Secp256k1.n)
      (fun d => After2 (fun u => HexNumeral u d ∧ 0 < d ∧ d < Secp256k1.n) t) := by
    unfold keyOf
    refine Reading.after2 (S := fun (d : Nat) u => HexNumeral u d ∧ 0 < d ∧ d < Secp256k1.n) fun a b u _ => ?_
    have hiff : ∀ z, (∃ x, BInt.fromHex w u = .ok x ∧ Denotes w x z) ↔ (u = [] ∧ z = 0) ∨ HexNumeral u z := by
      obtain ⟨k, hk, rfl⟩ := hw.bytes
      exact C07_parse_iff k hk u
    have hret : (∃ x, BInt.fromHex w u = .ok x ∧ WF w x) ∨ ∃ e, BInt.fromHex w u = .err e := by
      obtain ⟨k, hk, rfl⟩ := hw.bytes
      exact fromHex_wf hk u
    rcases hret with ⟨x, e, hx⟩ | ⟨e', e⟩
    · have hx : Denotes w x (toInt w x) := ⟨hx, rfl⟩
      generalize toInt w x = z at hx
      obtain ⟨_, ek, rfl⟩ := privateKeyNew_y (ε := Unit) m hx hn
      simp only [e, unwrapped, bind_ok, ek]
      have huniq : ∀ z', HexNumeral u z' → z' = z := by
        intro z' h'
        obtain ⟨x', e1, hx'⟩ := (hiff z').mpr (.inr h')
        rw [e] at e1
        injection e1 with e1
        subst e1
        exact hx'.2.symm.trans hx.2
      by_cases hc : 0 < z ∧ z < Secp256k1.n
      · rw [if_pos hc]
        obtain ⟨d, rfl⟩ := Int.eq_ofNat_of_zero_le (show 0 ≤ z by omega)
        refine .inl ⟨_, d, rfl, ⟨rfl, hx, by omega, by omega⟩, fun d' => ⟨fun h => ?_, fun h => ?_⟩⟩
        · have := huniq _ h.1; omega
        · subst h
          rcases (hiff _).mp ⟨x, e, hx⟩ with ⟨_, h⟩ | h
          · omega
          · exact ⟨h, by omega, by omega⟩
      · rw [if_neg hc]
        refine .inr ⟨rfl, ?_⟩
        rintro d ⟨h1, h2, h3⟩
        have := huniq _ h1
        omega
    · refine .inr ⟨by rw [e]; rfl, ?_⟩
      rintro d ⟨h1, -⟩
      obtain ⟨x', e1, _⟩ := (hiff d).mpr (.inr h1)
      rw [e] at e1
      cases e1
  refine hmain.congr fun n => ⟨?_, ?_⟩
  · rintro ⟨a, b, u, e, h1, h2⟩; exact ⟨⟨a, b, u, e, h1⟩, h2⟩
  · rintro ⟨⟨a, b, u, e, h1⟩, h2⟩; exact ⟨a, b, u, e, h1, h2⟩

end LCT.TransactionTests
