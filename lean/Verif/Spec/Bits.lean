/-!
# Bit strings (specification)
-/

namespace LCT.Spec

/-- The `k` lowest bits of `n`, most significant first. -/
def natBits (k n : Nat) : List Bool := (List.range k).map fun i => n.testBit (k - 1 - i)

/-- The bits of a byte string, the most significant bit of each byte first (the convention of FIPS 180-4). -/
def bitsMSB (bs : List UInt8) : List Bool := bs.flatMap fun b => natBits 8 b.toNat

/-- The bits of a byte string, the least significant bit of each byte first (the convention of FIPS 202). -/
def bitsLSB (bs : List UInt8) : List Bool := bs.flatMap fun b => (List.range 8).map fun i => b.toNat.testBit i

end LCT.Spec
