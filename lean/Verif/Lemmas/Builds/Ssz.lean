import Verif.Lemmas.Builds
import Verif.Model.Ssz

/-!
# SSZ in debug and release builds
-/

namespace LCT.Mono
open Lean.Order (monotone)

/-- A type whose functions are monotone. -/
class SszMono {α : Type} (T : Ssz.SszType α) : Prop where
  size : monotone T.size
  plain : ∀ m, Plain (T.size m)
  toBytes : ∀ v, monotone fun m => T.toBytes m v
  tryFromBytes : ∀ bs, monotone fun m => T.tryFromBytes m bs

/-- Fields whose functions are monotone. -/
class FieldsMono {α : Type} (F : Ssz.Fields α) : Prop where
  sizes : monotone F.sizes
  plain : ∀ m, Plain (F.sizes m)
  encode : ∀ it v, monotone fun m => F.encode m it v
  decode : ∀ items, monotone fun m => F.decode m items

@[partial_fixpoint_monotone] theorem Ssz.size :
    ∀ (b : Build → Build), monotone b → ∀ α (T : LCT.Ssz.SszType α) [SszMono T], monotone fun m => T.size (b m) := by
  intro b hb α T _
  exact pass (F := T.size) SszMono.size hb

@[partial_fixpoint_monotone] theorem Ssz.toBytes :
    ∀ (b : Build → Build), monotone b → ∀ α (T : LCT.Ssz.SszType α) [SszMono T] v, monotone fun m => T.toBytes (b m) v := by
  intro b hb α T _ v
  exact pass (F := fun m => T.toBytes m v) (SszMono.toBytes v) hb

@[partial_fixpoint_monotone] theorem Ssz.tryFromBytes :
    ∀ (b : Build → Build), monotone b → ∀ α (T : LCT.Ssz.SszType α) [SszMono T] bs, monotone fun m => T.tryFromBytes (b m) bs := by
  intro b hb α T _ bs
  exact pass (F := fun m => T.tryFromBytes m bs) (SszMono.tryFromBytes bs) hb

@[partial_fixpoint_monotone] theorem Ssz.sizes :
    ∀ (b : Build → Build), monotone b → ∀ α (F : LCT.Ssz.Fields α) [FieldsMono F], monotone fun m => F.sizes (b m) := by
  intro b hb α F _
  exact pass (F := F.sizes) FieldsMono.sizes hb

@[partial_fixpoint_monotone] theorem Ssz.encodeFields :
    ∀ (b : Build → Build), monotone b → ∀ α (F : LCT.Ssz.Fields α) [FieldsMono F] it v, monotone fun m => F.encode (b m) it v := by
  intro b hb α F _ it v
  exact pass (F := fun m => F.encode m it v) (FieldsMono.encode it v) hb

@[partial_fixpoint_monotone] theorem Ssz.decodeFields :
    ∀ (b : Build → Build), monotone b → ∀ α (F : LCT.Ssz.Fields α) [FieldsMono F] items, monotone fun m => F.decode (b m) items := by
  intro b hb α F _ items
  exact pass (F := fun m => F.decode m items) (FieldsMono.decode items) hb

instance (k : Nat) : SszMono (Ssz.uintImpl k) where
  size := Lean.Order.monotone_const _
  plain _ := ⟨.inr ⟨_, rfl⟩⟩
  toBytes _ := Lean.Order.monotone_const _
  tryFromBytes _ := Lean.Order.monotone_const _

instance : SszMono Ssz.boolImpl where
  size := Lean.Order.monotone_const _
  plain _ := ⟨.inr ⟨_, rfl⟩⟩
  toBytes _ := Lean.Order.monotone_const _
  tryFromBytes _ := Lean.Order.monotone_const _

@[partial_fixpoint_monotone] theorem Ssz.addU32 :
    ∀ (b : Build → Build), monotone b → ∀ x y, monotone fun m => LCT.Ssz.addU32 (b m) x y := by
  intro b hb x y
  refine pass (F := fun m => LCT.Ssz.addU32 m x y) ?_ hb
  unfold LCT.Ssz.addU32
  mono

@[partial_fixpoint_monotone] theorem Ssz.subU32 :
    ∀ (b : Build → Build), monotone b → ∀ a x1, monotone fun m => @LCT.Ssz.subU32 (b m) a x1 := by
  intro b hb a x1
  refine pass (F := fun m => @LCT.Ssz.subU32 m a x1) ?_ hb
  unfold LCT.Ssz.subU32
  mono

@[partial_fixpoint_monotone] theorem Ssz.encodeTo :
    ∀ (b : Build → Build), monotone b → ∀ α T [SszMono T] it v, monotone fun m => @LCT.Ssz.encodeTo α (b m) T it v := by
  intro b hb α T _ it v
  refine pass (F := fun m => @LCT.Ssz.encodeTo α m T it v) ?_ hb
  unfold LCT.Ssz.encodeTo
  mono

@[partial_fixpoint_monotone] theorem Ssz.encode :
    ∀ (b : Build → Build), monotone b → ∀ α T [SszMono T] v, monotone fun m => @LCT.Ssz.encode α (b m) T v := by
  intro b hb α T _ v
  refine pass (F := fun m => @LCT.Ssz.encode α m T v) ?_ hb
  unfold LCT.Ssz.encode
  mono

@[partial_fixpoint_monotone] theorem Ssz.decode :
    ∀ (b : Build → Build), monotone b → ∀ α T [SszMono T] bs, monotone fun m => @LCT.Ssz.decode α (b m) T bs := by
  intro b hb α T _ bs
  refine pass (F := fun m => @LCT.Ssz.decode α m T bs) ?_ hb
  unfold LCT.Ssz.decode
  mono

@[partial_fixpoint_monotone] theorem Ssz.decodeU32 :
    ∀ (b : Build → Build), monotone b → ∀ bs, monotone fun m => @LCT.Ssz.decodeU32 (b m) bs := by
  intro b hb bs
  refine pass (F := fun m => @LCT.Ssz.decodeU32 m bs) ?_ hb
  unfold LCT.Ssz.decodeU32
  mono

@[partial_fixpoint_monotone] theorem Ssz.encodeAll :
    ∀ (b : Build → Build), monotone b → ∀ α T [SszMono T] isVar x1 x2, monotone fun m => @LCT.Ssz.encodeAll α (b m) T isVar x1 x2 := by
  intro b hb α T _ isVar x1 x2
  refine pass (F := fun m => @LCT.Ssz.encodeAll α m T isVar x1 x2) ?_ hb
  induction x2 generalizing x1 with
  | nil =>
    unfold LCT.Ssz.encodeAll
    mono
  | cons _ _ ih =>
    unfold LCT.Ssz.encodeAll
    mono using ih

@[partial_fixpoint_monotone] theorem Ssz.seqToBytes :
    ∀ (b : Build → Build), monotone b → ∀ α T [SszMono T] vs, monotone fun m => @LCT.Ssz.seqToBytes α (b m) T vs := by
  intro b hb α T _ vs
  refine pass (F := fun m => @LCT.Ssz.seqToBytes α m T vs) ?_ hb
  unfold LCT.Ssz.seqToBytes
  mono

@[partial_fixpoint_monotone] theorem Ssz.decodeEach :
    ∀ (b : Build → Build), monotone b → ∀ α T [SszMono T] x1, monotone fun m => @LCT.Ssz.decodeEach α (b m) T x1 := by
  intro b hb α T _ x1
  refine pass (F := fun m => @LCT.Ssz.decodeEach α m T x1) ?_ hb
  induction x1 with
  | nil =>
    unfold LCT.Ssz.decodeEach
    mono
  | cons _ _ ih =>
    unfold LCT.Ssz.decodeEach
    mono using ih

@[partial_fixpoint_monotone] theorem Ssz.readOffsets :
    ∀ (b : Build → Build), monotone b → ∀ len x1 x2, monotone fun m => @LCT.Ssz.readOffsets (b m) len x1 x2 := by
  intro b hb len x1 x2
  refine pass (F := fun m => @LCT.Ssz.readOffsets m len x1 x2) ?_ hb
  induction x2 generalizing x1 with
  | nil =>
    unfold LCT.Ssz.readOffsets
    mono
  | cons _ _ ih =>
    unfold LCT.Ssz.readOffsets
    mono using ih

@[partial_fixpoint_monotone] theorem Ssz.decodeWindows :
    ∀ (b : Build → Build), monotone b → ∀ α T [SszMono T] bs x1, monotone fun m => @LCT.Ssz.decodeWindows α (b m) T bs x1 := by
  intro b hb α T _ bs x1
  refine pass (F := fun m => @LCT.Ssz.decodeWindows α m T bs x1) ?_ hb
  induction x1 with
  | nil =>
    unfold LCT.Ssz.decodeWindows
    mono
  | cons o os ih =>
    cases os with
    | nil =>
      unfold LCT.Ssz.decodeWindows
      mono
    | cons o2 os =>
      unfold LCT.Ssz.decodeWindows
      try dsimp only
      mono using ih

@[partial_fixpoint_monotone] theorem Ssz.variableAsserts :
    ∀ (b : Build → Build), monotone b → ∀ α T [SszMono T] n headersLen, monotone fun m => @LCT.Ssz.variableAsserts α (b m) T n headersLen := by
  intro b hb α T _ n headersLen
  refine pass (F := fun m => @LCT.Ssz.variableAsserts α m T n headersLen) ?_ hb
  refine iff.2 ?_
  have h : Plain (LCT.Ssz.variableAsserts .debug T n headersLen) := by
    have := SszMono.plain (T := T)
    unfold LCT.Ssz.variableAsserts LCT.Ssz.checkedMul
    dsimp only
    infer_instance
  rcases h.plain with h | ⟨_, h⟩
  · exact .inl h
  · exact .inr h

@[partial_fixpoint_monotone] theorem Ssz.decodeVariable :
    ∀ (b : Build → Build), monotone b → ∀ α T [SszMono T] bs n headersLen,
      monotone fun m => @LCT.Ssz.decodeVariable α (b m) T bs n headersLen := by
  intro b hb α T _ bs n headersLen
  refine pass (F := fun m => @LCT.Ssz.decodeVariable α m T bs n headersLen) ?_ hb
  unfold LCT.Ssz.decodeVariable
  mono

instance (a b : Nat) : Plain (Ssz.checkedMul a b) := by unfold LCT.Ssz.checkedMul; infer_instance
instance (n : Nat) : Plain (Ssz.toU32 n) := by unfold LCT.Ssz.toU32; infer_instance

instance {α : Type} (n : Nat) (T : Ssz.SszType α) [h : SszMono T] : SszMono (Ssz.arrayImpl n T) where
  size := by
    unfold LCT.Ssz.arrayImpl
    dsimp only
    mono
  plain m := by
    have := h.plain m
    unfold LCT.Ssz.arrayImpl
    dsimp only
    refine @instPlainBind _ _ _ _ _ this fun a => ?_
    cases a <;> infer_instance
  toBytes v := by
    unfold LCT.Ssz.arrayImpl
    dsimp only
    mono
  tryFromBytes bs := by
    unfold LCT.Ssz.arrayImpl
    dsimp only
    mono

instance {α : Type} (T : Ssz.SszType α) [h : SszMono T] : SszMono (Ssz.listImpl T) where
  size := Lean.Order.monotone_const _
  plain m := ⟨.inr ⟨_, rfl⟩⟩
  toBytes v := by
    unfold LCT.Ssz.listImpl
    dsimp only
    mono
  tryFromBytes bs := by
    unfold LCT.Ssz.listImpl
    dsimp only
    mono

@[partial_fixpoint_monotone] theorem Ssz.encodeElement :
    ∀ (b : Build → Build), monotone b → ∀ α T [SszMono T] it v, monotone fun m => @LCT.Ssz.encodeElement α (b m) T it v := by
  intro b hb α T _ it v
  refine pass (F := fun m => @LCT.Ssz.encodeElement α m T it v) ?_ hb
  unfold LCT.Ssz.encodeElement
  mono

@[partial_fixpoint_monotone] theorem Ssz.headersLength :
    ∀ (b : Build → Build), monotone b → ∀ x1 x2, monotone fun m => @LCT.Ssz.headersLength (b m) x1 x2 := by
  intro b hb x1 x2
  refine pass (F := fun m => @LCT.Ssz.headersLength m x1 x2) ?_ hb
  induction x2 generalizing x1 with
  | nil =>
    unfold LCT.Ssz.headersLength
    mono
  | cons s _ ih =>
    cases s
    all_goals
      unfold LCT.Ssz.headersLength
      try dsimp only
      mono using ih

@[partial_fixpoint_monotone] theorem Ssz.itemsLoop :
    ∀ (b : Build → Build), monotone b → ∀ bs x1 x2 x3 x4, monotone fun m => @LCT.Ssz.itemsLoop (b m) bs x1 x2 x3 x4 := by
  intro b hb bs x1 x2 x3 x4
  refine pass (F := fun m => @LCT.Ssz.itemsLoop m bs x1 x2 x3 x4) ?_ hb
  induction x1 generalizing x2 x3 x4 with
  | nil =>
    unfold LCT.Ssz.itemsLoop
    mono
  | cons s _ ih =>
    cases s
    all_goals
      unfold LCT.Ssz.itemsLoop
      try dsimp only
      mono using ih

@[partial_fixpoint_monotone] theorem Ssz.decodeAsItems :
    ∀ (b : Build → Build), monotone b → ∀ bs sizes, monotone fun m => @LCT.Ssz.decodeAsItems (b m) bs sizes := by
  intro b hb bs sizes
  refine pass (F := fun m => @LCT.Ssz.decodeAsItems m bs sizes) ?_ hb
  unfold LCT.Ssz.decodeAsItems
  mono

@[partial_fixpoint_monotone] theorem Ssz.sumSizes :
    ∀ (b : Build → Build), monotone b → ∀ x1 x2, monotone fun m => @LCT.Ssz.sumSizes (b m) x1 x2 := by
  intro b hb x1 x2
  refine pass (F := fun m => @LCT.Ssz.sumSizes m x1 x2) ?_ hb
  induction x2 generalizing x1 with
  | nil =>
    unfold LCT.Ssz.sumSizes
    mono
  | cons s _ ih =>
    cases s
    all_goals
      unfold LCT.Ssz.sumSizes
      try dsimp only
      mono using ih

instance (m : Build) (a b : Nat) : Plain (LCT.Ssz.addU32 m a b) := by
  unfold LCT.Ssz.addU32
  cases m <;> infer_instance

instance (m : Build) (total : Nat) (sizes : List (Option Nat)) : Plain (LCT.Ssz.sumSizes m total sizes) := by
  induction sizes generalizing total with
  | nil => exact ⟨.inr ⟨_, rfl⟩⟩
  | cons s _ ih =>
    cases s
    · exact ⟨.inr ⟨_, rfl⟩⟩
    · unfold LCT.Ssz.sumSizes
      infer_instance

instance : FieldsMono Ssz.noFields where
  sizes := Lean.Order.monotone_const _
  plain _ := ⟨.inr ⟨_, rfl⟩⟩
  encode _ _ := Lean.Order.monotone_const _
  decode _ := Lean.Order.monotone_const _

instance {α β : Type} (T : Ssz.SszType α) (F : Ssz.Fields β) [hT : SszMono T] [hF : FieldsMono F] : FieldsMono (Ssz.addField T F) where
  sizes := by
    unfold LCT.Ssz.addField
    dsimp only
    mono
  plain m := by
    have := hT.plain m
    have := hF.plain m
    unfold LCT.Ssz.addField
    dsimp only
    infer_instance
  encode it v := by
    unfold LCT.Ssz.addField
    dsimp only
    mono
  decode items := by
    unfold LCT.Ssz.addField
    dsimp only
    mono

instance {α : Type} (F : Ssz.Fields α) [hF : FieldsMono F] : SszMono (Ssz.containerImpl F) where
  size := by
    unfold LCT.Ssz.containerImpl
    dsimp only
    mono
  plain m := by
    have := hF.plain m
    unfold LCT.Ssz.containerImpl
    dsimp only
    infer_instance
  toBytes v := by
    unfold LCT.Ssz.containerImpl
    dsimp only
    mono
  tryFromBytes bs := by
    unfold LCT.Ssz.containerImpl
    dsimp only
    mono

mutual
theorem Ssz.impl : (t : Spec.Ssz.Ty) → SszMono (LCT.Ssz.impl t)
  | .bool => by
    unfold LCT.Ssz.impl
    exact inferInstanceAs (SszMono Ssz.boolImpl)
  | .uint w => by
    unfold LCT.Ssz.impl
    exact inferInstanceAs (SszMono (Ssz.uintImpl w.bytes))
  | .vec n t => by
    have := Ssz.impl t
    unfold LCT.Ssz.impl
    exact inferInstanceAs (SszMono (Ssz.arrayImpl n (LCT.Ssz.impl t)))
  | .list t => by
    have := Ssz.impl t
    unfold LCT.Ssz.impl
    exact inferInstanceAs (SszMono (Ssz.listImpl (LCT.Ssz.impl t)))
  | .container fs => by
    have := Ssz.fields fs
    unfold LCT.Ssz.impl
    exact inferInstanceAs (SszMono (Ssz.containerImpl (LCT.Ssz.fields fs)))
theorem Ssz.fields : (fs : List Spec.Ssz.Ty) → FieldsMono (LCT.Ssz.fields fs)
  | [] => by
    unfold LCT.Ssz.fields
    exact inferInstanceAs (FieldsMono Ssz.noFields)
  | t :: fs => by
    have := Ssz.impl t
    have := Ssz.fields fs
    unfold LCT.Ssz.fields
    exact inferInstanceAs (FieldsMono (Ssz.addField (LCT.Ssz.impl t) (LCT.Ssz.fields fs)))
end

instance (t : Spec.Ssz.Ty) : SszMono (LCT.Ssz.impl t) := Ssz.impl t

@[partial_fixpoint_monotone] theorem Ssz.runOps :
    ∀ (b : Build → Build), monotone b → ∀ x1 x2, monotone fun m => @LCT.Ssz.runOps (b m) x1 x2 := by
  intro b hb x1 x2
  refine pass (F := fun m => @LCT.Ssz.runOps m x1 x2) ?_ hb
  induction x2 generalizing x1 with
  | nil =>
    unfold LCT.Ssz.runOps
    mono
  | cons op _ ih =>
    cases op
    all_goals
      unfold LCT.Ssz.runOps
      try dsimp only
      mono using ih

end LCT.Mono
