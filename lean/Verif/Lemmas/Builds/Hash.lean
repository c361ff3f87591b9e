import Verif.Lemmas.Builds
import Verif.Model.Hash.Sha2
import Verif.Model.Hash.Sha3

/-!
# Hash functions in debug and release builds
-/

namespace LCT.Mono
open Lean.Order (monotone)

/-- The digest of a hasher. -/
class HasherMono (H : Hash.Hasher) : Prop where
  digest : ∀ ε st message, monotone fun m => (H.digest m st message : Out ε (List UInt8 × H.State))

@[partial_fixpoint_monotone] theorem Hash.digest :
    ∀ (b : Build → Build), monotone b → ∀ ε H [HasherMono H] st message, monotone fun m => @LCT.Hash.Hasher.digest H ε (b m) st message := by
  intro b hb ε H _ st message
  exact pass (F := fun m => @LCT.Hash.Hasher.digest H ε m st message) (HasherMono.digest ε st message) hb

@[partial_fixpoint_monotone] theorem Hash.blockKey :
    ∀ (b : Build → Build), monotone b → ∀ ε H [HasherMono H] st key, monotone fun m => @LCT.Hash.blockKey ε (b m) H st key := by
  intro b hb ε H _ st key
  unfold LCT.Hash.blockKey
  mono

@[partial_fixpoint_monotone] theorem Hash.hmac :
    ∀ (b : Build → Build), monotone b → ∀ ε H [HasherMono H] st key message, monotone fun m => @LCT.Hash.hmac ε (b m) H st key message := by
  intro b hb ε H _ st key message
  unfold LCT.Hash.hmac
  mono

@[partial_fixpoint_monotone] theorem Hash.Sha2.mulU64 :
    ∀ (b : Build → Build), monotone b → ∀ ε a x1, monotone fun m => @LCT.Hash.Sha2.mulU64 ε (b m) a x1 := by
  intro b hb ε a x1
  refine pass (F := fun m => @LCT.Hash.Sha2.mulU64 ε m a x1) ?_ hb
  unfold LCT.Hash.Sha2.mulU64
  mono

@[partial_fixpoint_monotone] theorem Hash.Sha2.subU64 :
    ∀ (b : Build → Build), monotone b → ∀ ε a x1, monotone fun m => @LCT.Hash.Sha2.subU64 ε (b m) a x1 := by
  intro b hb ε a x1
  refine pass (F := fun m => @LCT.Hash.Sha2.subU64 ε m a x1) ?_ hb
  unfold LCT.Hash.Sha2.subU64
  mono

@[partial_fixpoint_monotone] theorem Hash.Sha2.calculateK :
    ∀ (b : Build → Build), monotone b → ∀ ε l x1 lb, monotone fun m => @LCT.Hash.Sha2.calculateK ε (b m) l x1 lb := by
  intro b hb ε l x1 lb
  refine pass (F := fun m => @LCT.Hash.Sha2.calculateK ε m l x1 lb) ?_ hb
  unfold LCT.Hash.Sha2.calculateK
  mono

@[partial_fixpoint_monotone] theorem Hash.Sha2.digestCore :
    ∀ (b : Build → Build), monotone b → ∀ ε v C init st message, monotone fun m => @LCT.Hash.Sha2.digestCore ε v (b m) C init st message := by
  intro b hb ε v C init st message
  refine pass (F := fun m => @LCT.Hash.Sha2.digestCore ε v m C init st message) ?_ hb
  unfold LCT.Hash.Sha2.digestCore
  mono

@[partial_fixpoint_monotone] theorem Hash.Sha3.sha3Digest :
    ∀ (b : Build → Build), monotone b → ∀ ε message s out suffix, monotone fun m => @LCT.Hash.Sha3.sha3Digest ε (b m) message s out suffix := by
  intro b hb ε message s out suffix
  unfold LCT.Hash.Sha3.sha3Digest
  mono

instance (block out : Nat) (suffix : UInt8) : HasherMono (LCT.Hash.Sha3.hasher block out suffix) where
  digest ε st message := by
    unfold LCT.Hash.Sha3.hasher
    dsimp only
    mono

instance : HasherMono LCT.Hash.Sha3.Keccak256 := inferInstanceAs (HasherMono (LCT.Hash.Sha3.hasher _ _ _))
instance : HasherMono LCT.Hash.Sha3.Sha3_224 := inferInstanceAs (HasherMono (LCT.Hash.Sha3.hasher _ _ _))
instance : HasherMono LCT.Hash.Sha3.Sha3_256 := inferInstanceAs (HasherMono (LCT.Hash.Sha3.hasher _ _ _))
instance : HasherMono LCT.Hash.Sha3.Sha3_384 := inferInstanceAs (HasherMono (LCT.Hash.Sha3.hasher _ _ _))
instance : HasherMono LCT.Hash.Sha3.Sha3_512 := inferInstanceAs (HasherMono (LCT.Hash.Sha3.hasher _ _ _))

instance : HasherMono LCT.Hash.Sha2.Sha256 where
  digest ε st message := by
    unfold LCT.Hash.Sha2.Sha256
    dsimp only
    mono

instance : HasherMono LCT.Hash.Sha2.Sha384 where
  digest ε st message := by
    unfold LCT.Hash.Sha2.Sha384
    dsimp only
    mono

instance : HasherMono LCT.Hash.Sha2.Sha512 where
  digest ε st message := by
    unfold LCT.Hash.Sha2.Sha512
    dsimp only
    mono

end LCT.Mono
