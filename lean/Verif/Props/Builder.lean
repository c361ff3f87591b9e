import Verif.Basic
import Verif.Spec.Builder

/-!
# The transaction builder: C45
-/

namespace LCT.Props
open LCT.BigInt LCT.Spec.Eth LCT.Out LCT.Ethereum
variable {ε : Type}

/-- The builder after one more call. -/
def afterCall (b : Builder) : Call → Out ε Builder
  | .set .chainId v => .ok (b.withChainId v)
  | .set .nonce v => .ok (b.withNonce v)
  | .set .gasPrice v => .ok (b.withGasPrice v)
  | .set .maxPriorityFeePerGas v => .ok (b.withMaxPriorityFeePerGas v)
  | .set .maxFeePerGas v => .ok (b.withMaxFeePerGas v)
  | .set .gasLimit v => .ok (b.withGasLimit v)
  | .set .destination v => .ok (b.withDestination v)
  | .set .amount v => .ok (b.withAmount v)
  | .set .data v => .ok (b.withData v)
  | .set .accessList v => .ok (b.withAccessList v)
  | .build .legacy => b.takeAndBuildLegacy >>= fun r => .ok r.2
  | .build .eip155 => b.takeAndBuildEip155 >>= fun r => .ok r.2
  | .build .eip2930 => b.takeAndBuildEip2930 >>= fun r => .ok r.2
  | .build .eip1559 => b.takeAndBuildEip1559 >>= fun r => .ok r.2

/-- A new builder after a history of calls, the latest call first. -/
def afterCalls : List Call → Out ε Builder
  | [] => .ok Builder.new
  | c :: history => afterCalls history >>= fun b => afterCall b c

/-- The contents of a field. -/
def contents (b : Builder) : (f : Field) → Option f.Val
  | .chainId => b.chainId
  | .nonce => b.nonce
  | .gasPrice => b.gasPrice
  | .maxPriorityFeePerGas => b.maxPriorityFeePerGas
  | .maxFeePerGas => b.maxFeePerGas
  | .gasLimit => b.gasLimit
  | .destination => b.destination
  | .amount => b.amount
  | .data => b.data
  | .accessList => b.accessList

theorem buildLegacy_missing (b : Builder) (h : ∃ f ∈ Kind.legacy.mandatory, contents b f = none) :
    (b.takeAndBuildLegacy : Out ε _) = .ok (.error .MissingFields, b) := by
  rw [Builder.takeAndBuildLegacy, if_pos]
  · rfl
  · simp [Kind.mandatory, contents, or_assoc] at h ⊢
    exact h

theorem buildEip155_missing (b : Builder) (h : ∃ f ∈ Kind.eip155.mandatory, contents b f = none) :
    (b.takeAndBuildEip155 : Out ε _) = .ok (.error .MissingFields, b) := by
  rw [Builder.takeAndBuildEip155, if_pos]
  · rfl
  · simp [Kind.mandatory, contents, or_assoc] at h ⊢
    exact h

theorem buildEip2930_missing (b : Builder) (h : ∃ f ∈ Kind.eip2930.mandatory, contents b f = none) :
    (b.takeAndBuildEip2930 : Out ε _) = .ok (.error .MissingFields, b) := by
  rw [Builder.takeAndBuildEip2930, if_pos]
  · rfl
  · simp [Kind.mandatory, contents, or_assoc] at h ⊢
    exact h

theorem buildEip1559_missing (b : Builder) (h : ∃ f ∈ Kind.eip1559.mandatory, contents b f = none) :
    (b.takeAndBuildEip1559 : Out ε _) = .ok (.error .MissingFields, b) := by
  rw [Builder.takeAndBuildEip1559, if_pos]
  · rfl
  · simp [Kind.mandatory, contents, or_assoc] at h ⊢
    exact h

theorem buildLegacy_all (b : Builder) (n g l d a) (h1 : b.nonce = some n) (h2 : b.gasPrice = some g) (h3 : b.gasLimit = some l)
    (h4 : b.destination = some d) (h5 : b.amount = some a) :
    (b.takeAndBuildLegacy : Out ε _) = .ok (.ok ⟨n, g, l, d, a, b.data.getD []⟩,
      { b with nonce := none, gasPrice := none, gasLimit := none, destination := none, amount := none, data := none }) := by
  rw [Builder.takeAndBuildLegacy, if_neg (by simp [h1, h2, h3, h4, h5])]
  simp only [h1, h2, h3, h4, h5]; rfl

theorem buildEip155_all (b : Builder) (c n g l d a) (h0 : b.chainId = some c) (h1 : b.nonce = some n) (h2 : b.gasPrice = some g)
    (h3 : b.gasLimit = some l) (h4 : b.destination = some d) (h5 : b.amount = some a) :
    (b.takeAndBuildEip155 : Out ε _) = .ok (.ok ⟨c, n, g, l, d, a, b.data.getD []⟩,
      { b with chainId := none, nonce := none, gasPrice := none, gasLimit := none, destination := none, amount := none, data := none }) := by
  rw [Builder.takeAndBuildEip155, if_neg (by simp [h0, h1, h2, h3, h4, h5])]
  simp only [h0, h1, h2, h3, h4, h5]; rfl

theorem buildEip2930_all (b : Builder) (c n g l d a) (h0 : b.chainId = some c) (h1 : b.nonce = some n) (h2 : b.gasPrice = some g)
    (h3 : b.gasLimit = some l) (h4 : b.destination = some d) (h5 : b.amount = some a) :
    (b.takeAndBuildEip2930 : Out ε _) = .ok (.ok ⟨c, n, g, l, d, a, b.data.getD [], b.accessList.getD []⟩,
      { b with chainId := none, nonce := none, gasPrice := none, gasLimit := none, destination := none, amount := none, data := none,
               accessList := none }) := by
  rw [Builder.takeAndBuildEip2930, if_neg (by simp [h0, h1, h2, h3, h4, h5])]
  simp only [h0, h1, h2, h3, h4, h5]; rfl

theorem buildEip1559_all (b : Builder) (c n p g l d a) (h0 : b.chainId = some c) (h1 : b.nonce = some n)
    (h2 : b.maxPriorityFeePerGas = some p) (h2' : b.maxFeePerGas = some g)
    (h3 : b.gasLimit = some l) (h4 : b.destination = some d) (h5 : b.amount = some a) :
    (b.takeAndBuildEip1559 : Out ε _) = .ok (.ok ⟨c, n, p, g, l, d, a, b.data.getD [], b.accessList.getD []⟩,
      { b with chainId := none, nonce := none, maxPriorityFeePerGas := none, maxFeePerGas := none, gasLimit := none, destination := none,
               amount := none, data := none, accessList := none }) := by
  rw [Builder.takeAndBuildEip1559, if_neg (by simp [h0, h1, h2, h2', h3, h4, h5])]
  simp only [h0, h1, h2, h2', h3, h4, h5]; rfl

/-- A successful build empties exactly the fields of the payload. -/
theorem afterBuild (b : Builder) (k : Kind) : ∃ b', (afterCall b (.build k) : Out ε _) = .ok b' ∧ ∀ f, contents b' f =
    if f ∈ k.mandatory ++ k.optional ∧ ∀ g ∈ k.mandatory, (contents b g).isSome then none else contents b f := by
  by_cases h : ∃ f ∈ k.mandatory, contents b f = none
  · have hn : ¬ ∀ g ∈ k.mandatory, (contents b g).isSome := by
      intro h2
      obtain ⟨f, hf, e⟩ := h
      have := h2 f hf
      rw [e] at this; simp at this
    refine ⟨b, ?_, fun f => by rw [if_neg (fun h2 => hn h2.2)]⟩
    cases k
    · rw [afterCall, buildLegacy_missing b h]; rfl
    · rw [afterCall, buildEip155_missing b h]; rfl
    · rw [afterCall, buildEip2930_missing b h]; rfl
    · rw [afterCall, buildEip1559_missing b h]; rfl
  · have hs : ∀ g ∈ k.mandatory, ∃ v, contents b g = some v := by
      intro g hg
      cases e : contents b g with
      | none => exact absurd ⟨g, hg, e⟩ h
      | some v => exact ⟨v, rfl⟩
    have hs' : ∀ g ∈ k.mandatory, (contents b g).isSome := fun g hg => by obtain ⟨v, e⟩ := hs g hg; rw [e]; rfl
    have red : ∀ f, (if f ∈ k.mandatory ++ k.optional ∧ ∀ g ∈ k.mandatory, (contents b g).isSome then none else contents b f) =
        if f ∈ k.mandatory ++ k.optional then none else contents b f := by
      intro f
      by_cases hf : f ∈ k.mandatory ++ k.optional
      · rw [if_pos ⟨hf, hs'⟩, if_pos hf]
      · rw [if_neg (fun h2 => hf h2.1), if_neg hf]
    suffices key : ∃ b', (afterCall b (.build k) : Out ε _) = .ok b' ∧ ∀ f, contents b' f =
        if f ∈ k.mandatory ++ k.optional then none else contents b f by
      obtain ⟨b', e, h'⟩ := key
      exact ⟨b', e, fun f => (h' f).trans (red f).symm⟩
    cases k <;> simp only [Kind.mandatory, List.forall_mem_cons, List.forall_mem_nil, and_true] at hs
    · obtain ⟨⟨_, h1⟩, ⟨_, h2⟩, ⟨_, h3⟩, ⟨_, h4⟩, ⟨_, h5⟩, -⟩ := hs
      exact ⟨_, by rw [afterCall, buildLegacy_all b _ _ _ _ _ h1 h2 h3 h4 h5]; rfl, fun f => by cases f <;> rfl⟩
    · obtain ⟨⟨_, h0⟩, ⟨_, h1⟩, ⟨_, h2⟩, ⟨_, h3⟩, ⟨_, h4⟩, ⟨_, h5⟩, -⟩ := hs
      exact ⟨_, by rw [afterCall, buildEip155_all b _ _ _ _ _ _ h0 h1 h2 h3 h4 h5]; rfl, fun f => by cases f <;> rfl⟩
    · obtain ⟨⟨_, h0⟩, ⟨_, h1⟩, ⟨_, h2⟩, ⟨_, h3⟩, ⟨_, h4⟩, ⟨_, h5⟩, -⟩ := hs
      exact ⟨_, by rw [afterCall, buildEip2930_all b _ _ _ _ _ _ h0 h1 h2 h3 h4 h5]; rfl, fun f => by cases f <;> rfl⟩
    · obtain ⟨⟨_, h0⟩, ⟨_, h1⟩, ⟨_, h2⟩, ⟨_, h2'⟩, ⟨_, h3⟩, ⟨_, h4⟩, ⟨_, h5⟩, -⟩ := hs
      exact ⟨_, by rw [afterCall, buildEip1559_all b _ _ _ _ _ _ _ h0 h1 h2 h2' h3 h4 h5]; rfl, fun f => by cases f <;> rfl⟩

/-- Invariant: after every history of calls no call has panicked, and the builder contains the current values. -/
theorem afterCalls_contents (history : List Call) : ∃ b, (afterCalls history : Out ε _) = .ok b ∧ ∀ f, contents b f = current history f := by
  induction history with
  | nil => exact ⟨_, rfl, fun f => by cases f <;> rfl⟩
  | cons c history ih =>
    obtain ⟨b, e, h⟩ := ih
    rw [afterCalls, e]
    cases c with
    | set g v =>
      have key : ∀ b' : Builder, (∀ f, contents b' f = if e : g = f then some (e ▸ v) else contents b f) →
          ∀ f, contents b' f = current (.set g v :: history) f := by
        intro b' hb' f
        rw [hb', current, h f]
      cases g <;> exact ⟨_, rfl, key _ fun f => by cases f <;> rfl⟩
    | build k =>
      obtain ⟨b', e', h'⟩ := afterBuild (ε := ε) b k
      refine ⟨b', e', fun f => ?_⟩
      rw [h' f, current]
      simp only [h]

/-- C45: building a payload never panics; it reports missing fields exactly when a mandatory field has no value, and then leaves the builder as
it was.  Any history of calls. -/
theorem C45_missing (history : List Call) : ∃ b, (afterCalls history : Out ε _) = .ok b ∧
    (Missing history .legacy → (b.takeAndBuildLegacy : Out ε _) = .ok (.error .MissingFields, b)) ∧
    (Missing history .eip155 → (b.takeAndBuildEip155 : Out ε _) = .ok (.error .MissingFields, b)) ∧
    (Missing history .eip2930 → (b.takeAndBuildEip2930 : Out ε _) = .ok (.error .MissingFields, b)) ∧
    (Missing history .eip1559 → (b.takeAndBuildEip1559 : Out ε _) = .ok (.error .MissingFields, b)) := by
  obtain ⟨b, e, h⟩ := afterCalls_contents (ε := ε) history
  refine ⟨b, e, ?_, ?_, ?_, ?_⟩ <;> rintro ⟨f, hf, e⟩
  · exact buildLegacy_missing b ⟨f, hf, (h f).trans e⟩
  · exact buildEip155_missing b ⟨f, hf, (h f).trans e⟩
  · exact buildEip2930_missing b ⟨f, hf, (h f).trans e⟩
  · exact buildEip1559_missing b ⟨f, hf, (h f).trans e⟩

/-- C45: otherwise the payload consists of the current values (the last values set since they were last taken), with no data if none is set. -/
theorem C45_legacy (history : List Call) (n g l d a) (h1 : current history .nonce = some n) (h2 : current history .gasPrice = some g)
    (h3 : current history .gasLimit = some l) (h4 : current history .destination = some d) (h5 : current history .amount = some a) :
    ∃ b b', (afterCalls history : Out ε _) = .ok b ∧
      (b.takeAndBuildLegacy : Out ε _) = .ok (.ok ⟨n, g, l, d, a, (current history .data).getD ([] : List UInt8)⟩, b') ∧
      ∀ f, contents b' f = current (.build .legacy :: history) f := by
  obtain ⟨b, e, h⟩ := afterCalls_contents (ε := ε) history
  have hb := buildLegacy_all (ε := ε) b n g l d a ((h .nonce).trans h1) ((h .gasPrice).trans h2) ((h .gasLimit).trans h3)
    ((h .destination).trans h4) ((h .amount).trans h5)
  obtain ⟨b', e', h'⟩ := afterCalls_contents (ε := ε) (.build .legacy :: history)
  rw [afterCalls, e, bind_ok, afterCall, hb, bind_ok] at e'
  refine ⟨b, b', e, ?_, h'⟩
  have hd : b.data = current history .data := h .data
  rw [hb, hd]
  injection e' with e'
  rw [← e']; rfl

theorem C45_eip155 (history : List Call) (c n g l d a) (h0 : current history .chainId = some c) (h1 : current history .nonce = some n)
    (h2 : current history .gasPrice = some g)
    (h3 : current history .gasLimit = some l) (h4 : current history .destination = some d) (h5 : current history .amount = some a) :
    ∃ b b', (afterCalls history : Out ε _) = .ok b ∧
      (b.takeAndBuildEip155 : Out ε _) = .ok (.ok ⟨c, n, g, l, d, a, (current history .data).getD ([] : List UInt8)⟩, b') ∧
      ∀ f, contents b' f = current (.build .eip155 :: history) f := by
  obtain ⟨b, e, h⟩ := afterCalls_contents (ε := ε) history
  have hb := buildEip155_all (ε := ε) b c n g l d a ((h .chainId).trans h0) ((h .nonce).trans h1) ((h .gasPrice).trans h2)
    ((h .gasLimit).trans h3) ((h .destination).trans h4) ((h .amount).trans h5)
  obtain ⟨b', e', h'⟩ := afterCalls_contents (ε := ε) (.build .eip155 :: history)
  rw [afterCalls, e, bind_ok, afterCall, hb, bind_ok] at e'
  refine ⟨b, b', e, ?_, h'⟩
  have hd : b.data = current history .data := h .data
  rw [hb, hd]
  injection e' with e'
  rw [← e']; rfl

theorem C45_eip2930 (history : List Call) (c n g l d a) (h0 : current history .chainId = some c) (h1 : current history .nonce = some n)
    (h2 : current history .gasPrice = some g)
    (h3 : current history .gasLimit = some l) (h4 : current history .destination = some d) (h5 : current history .amount = some a) :
    ∃ b b', (afterCalls history : Out ε _) = .ok b ∧
      (b.takeAndBuildEip2930 : Out ε _) = .ok (.ok ⟨c, n, g, l, d, a, (current history .data).getD ([] : List UInt8),
        (current history .accessList).getD ([] : List AccessListItem)⟩, b') ∧
      ∀ f, contents b' f = current (.build .eip2930 :: history) f := by
  obtain ⟨b, e, h⟩ := afterCalls_contents (ε := ε) history
  have hb := buildEip2930_all (ε := ε) b c n g l d a ((h .chainId).trans h0) ((h .nonce).trans h1) ((h .gasPrice).trans h2)
    ((h .gasLimit).trans h3) ((h .destination).trans h4) ((h .amount).trans h5)
  obtain ⟨b', e', h'⟩ := afterCalls_contents (ε := ε) (.build .eip2930 :: history)
  rw [afterCalls, e, bind_ok, afterCall, hb, bind_ok] at e'
  refine ⟨b, b', e, ?_, h'⟩
  have hd : b.data = current history .data := h .data
  have ha : b.accessList = current history .accessList := h .accessList
  rw [hb, hd, ha]
  injection e' with e'
  rw [← e']; rfl

theorem C45_eip1559 (history : List Call) (c n p g l d a) (h0 : current history .chainId = some c) (h1 : current history .nonce = some n)
    (h2 : current history .maxPriorityFeePerGas = some p) (h2' : current history .maxFeePerGas = some g)
    (h3 : current history .gasLimit = some l) (h4 : current history .destination = some d) (h5 : current history .amount = some a) :
    ∃ b b', (afterCalls history : Out ε _) = .ok b ∧
      (b.takeAndBuildEip1559 : Out ε _) = .ok (.ok ⟨c, n, p, g, l, d, a, (current history .data).getD ([] : List UInt8),
        (current history .accessList).getD ([] : List AccessListItem)⟩, b') ∧
      ∀ f, contents b' f = current (.build .eip1559 :: history) f := by
  obtain ⟨b, e, h⟩ := afterCalls_contents (ε := ε) history
  have hb := buildEip1559_all (ε := ε) b c n p g l d a ((h .chainId).trans h0) ((h .nonce).trans h1) ((h .maxPriorityFeePerGas).trans h2)
    ((h .maxFeePerGas).trans h2') ((h .gasLimit).trans h3) ((h .destination).trans h4) ((h .amount).trans h5)
  obtain ⟨b', e', h'⟩ := afterCalls_contents (ε := ε) (.build .eip1559 :: history)
  rw [afterCalls, e, bind_ok, afterCall, hb, bind_ok] at e'
  refine ⟨b, b', e, ?_, h'⟩
  have hd : b.data = current history .data := h .data
  have ha : b.accessList = current history .accessList := h .accessList
  rw [hb, hd, ha]
  injection e' with e'
  rw [← e']; rfl

/-! A history in which a failed build keeps the values set before it, a later value replaces an earlier one, and a successful build takes them
all: afterwards a second build is missing fields. -/

def exampleCalls (price amount : Wei) : List Call :=
  [.set .amount amount, .build .legacy, .set .nonce (⟨5⟩ : EoaNonce), .set .destination Address.null,
    .set .gasLimit (21000 : UInt64), .set .gasPrice price, .set .nonce (⟨4⟩ : EoaNonce)]

example (price amount : Wei) : current (exampleCalls price amount) .nonce = some (⟨5⟩ : EoaNonce) ∧
    current (exampleCalls price amount) .gasPrice = some price ∧ current (exampleCalls price amount) .gasLimit = some (21000 : UInt64) ∧
    current (exampleCalls price amount) .destination = some Address.null ∧ current (exampleCalls price amount) .amount = some amount ∧
    current (exampleCalls price amount) .data = none ∧ Missing (exampleCalls price amount) .eip155 ∧
    Missing (.build .legacy :: exampleCalls price amount) .legacy :=
  ⟨rfl, rfl, rfl, rfl, rfl, rfl, ⟨.chainId, by decide, rfl⟩, ⟨.nonce, by decide, rfl⟩⟩

end LCT.Props
