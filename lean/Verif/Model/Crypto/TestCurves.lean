import Verif.Model.Crypto.Params

/-!
# Curves that users supply: `/repo/tests/crypto/curves.rs`
-/

namespace LCT.Crypto
open LCT.BigInt LCT.Out LCT.Curve
variable {ε : Type}

/-- `/repo/tests/crypto/curves.rs:11-39` `nist_p256`. -/
def nistP256 (w : Nat) : Out ε Params := do
  let a ← BInt.ofInt w (-3)
  let b ← fromHexUnwrap w "5ac635d8aa3a93e7b3ebbd55769886bc651d06b0cc53b0f63bce3c3e27d2604b"
  let p ← fromHexUnwrap w "ffffffff00000001000000000000000000000000ffffffffffffffffffffffff"
  let gx ← fromHexUnwrap w "6b17d1f2e12c4247f8bce6e563a440f277037d812deb33a0f4a13945d898c296"
  let gy ← fromHexUnwrap w "4fe342e2fe1a7f9b8ee7eb4a7c0f9e162bce33576b315ececbb6406837bf51f5"
  let n ← fromHexUnwrap w "ffffffff00000000ffffffffffffffffbce6faada7179e84f3b9cac2fc632551"
  return { curve := ⟨a, b, p⟩, basePoint := ⟨gx, gy⟩, order := n, cofactor := 1 }

/-- `/repo/tests/crypto/curves.rs:202-234` `secp256r1`: the same curve, with the coefficient `a` written as a residue. -/
def secp256r1 (w : Nat) : Out ε Params := do
  let a ← fromHexUnwrap w "FFFFFFFF00000001000000000000000000000000FFFFFFFFFFFFFFFFFFFFFFFC"
  let b ← fromHexUnwrap w "5AC635D8AA3A93E7B3EBBD55769886BC651D06B0CC53B0F63BCE3C3E27D2604B"
  let p ← fromHexUnwrap w "FFFFFFFF00000001000000000000000000000000FFFFFFFFFFFFFFFFFFFFFFFF"
  let gx ← fromHexUnwrap w "6B17D1F2E12C4247F8BCE6E563A440F277037D812DEB33A0F4A13945D898C296"
  let gy ← fromHexUnwrap w "4FE342E2FE1A7F9B8EE7EB4A7C0F9E162BCE33576B315ECECBB6406837BF51F5"
  let n ← fromHexUnwrap w "FFFFFFFF00000000FFFFFFFFFFFFFFFFBCE6FAADA7179E84F3B9CAC2FC632551"
  return { curve := ⟨a, b, p⟩, basePoint := ⟨gx, gy⟩, order := n, cofactor := 1 }

/-- `/repo/tests/crypto/curves.rs:306-339` `w25519`. -/
def w25519 (w : Nat) : Out ε Params := do
  let a ← fromHexUnwrap w "2AAAAAAAAAAAAAAAAAAAAAAAAAAAAAAAAAAAAAAAAAAAAAAAAAAAAA984914A144"
  let b ← fromHexUnwrap w "7b425ed097b425ed097b425ed097b425ed097b425ed097b4260b5e9c7710c864"
  let p ← fromHexUnwrap w "7FFFFFFFFFFFFFFFFFFFFFFFFFFFFFFFFFFFFFFFFFFFFFFFFFFFFFFFFFFFFFED"
  let gx ← fromHexUnwrap w "2AAAAAAAAAAAAAAAAAAAAAAAAAAAAAAAAAAAAAAAAAAAAAAAAAAAAAAAAAAD245A"
  let gy ← fromHexUnwrap w "5F51E65E475F794B1FE122D388B72EB36DC2B28192839E4DD6163A5D81312C14"
  let n ← fromHexUnwrap w "1000000000000000000000000000000014DEF9DEA2F79CD65812631A5CF5D3ED"
  return { curve := ⟨a, b, p⟩, basePoint := ⟨gx, gy⟩, order := n, cofactor := 8 }

/-- `/repo/tests/crypto/curves.rs:178-200` `secp224r1`. -/
def secp224r1 (w : Nat) : Out ε Params := do
  let a ← fromHexUnwrap w "FFFFFFFFFFFFFFFFFFFFFFFFFFFFFFFEFFFFFFFFFFFFFFFFFFFFFFFE"
  let b ← fromHexUnwrap w "B4050A850C04B3ABF54132565044B0B7D7BFD8BA270B39432355FFB4"
  let p ← fromHexUnwrap w "FFFFFFFFFFFFFFFFFFFFFFFFFFFFFFFF000000000000000000000001"
  let gx ← fromHexUnwrap w "B70E0CBD6BB4BF7F321390B94A03C1D356C21122343280D6115C1D21"
  let gy ← fromHexUnwrap w "BD376388B5F723FB4C22DFE6CD4375A05A07476444D5819985007E34"
  let n ← fromHexUnwrap w "FFFFFFFFFFFFFFFFFFFFFFFFFFFF16A2E0B8F03E13DD29455C5C2A3D"
  return { curve := ⟨a, b, p⟩, basePoint := ⟨gx, gy⟩, order := n, cofactor := 1 }

/-- `/repo/tests/crypto/curves.rs:236-269` `secp384r1`. -/
def secp384r1 (w : Nat) : Out ε Params := do
  let a ← fromHexUnwrap w "FFFFFFFFFFFFFFFFFFFFFFFFFFFFFFFFFFFFFFFFFFFFFFFFFFFFFFFFFFFFFFFEFFFFFFFF0000000000000000FFFFFFFC"
  let b ← fromHexUnwrap w "B3312FA7E23EE7E4988E056BE3F82D19181D9C6EFE8141120314088F5013875AC656398D8A2ED19D2A85C8EDD3EC2AEF"
  let p ← fromHexUnwrap w "FFFFFFFFFFFFFFFFFFFFFFFFFFFFFFFFFFFFFFFFFFFFFFFFFFFFFFFFFFFFFFFEFFFFFFFF0000000000000000FFFFFFFF"
  let gx ← fromHexUnwrap w "AA87CA22BE8B05378EB1C71EF320AD746E1D3B628BA79B9859F741E082542A385502F25DBF55296C3A545E3872760AB7"
  let gy ← fromHexUnwrap w "3617DE4A96262C6F5D9E98BF9292DC29F8F41DBD289A147CE9DA3113B5F0B8C00A60B1CE1D7E819D7A431D7C90EA0E5F"
  let n ← fromHexUnwrap w "FFFFFFFFFFFFFFFFFFFFFFFFFFFFFFFFFFFFFFFFFFFFFFFFC7634D81F4372DDF581A0DB248B0A77AECEC196ACCC52973"
  return { curve := ⟨a, b, p⟩, basePoint := ⟨gx, gy⟩, order := n, cofactor := 1 }

/-- `/repo/tests/crypto/curves.rs:271-304` `secp521r1`. -/
def secp521r1 (w : Nat) : Out ε Params := do
  let a ← fromHexUnwrap w "01FFFFFFFFFFFFFFFFFFFFFFFFFFFFFFFFFFFFFFFFFFFFFFFFFFFFFFFFFFFFFFFFFFFFFFFFFFFFFFFFFFFFFFFFFFFFFFFFFFFFFFFFFFFFFFFFFFFFFFFFFFFFFFFFFC"
  let b ← fromHexUnwrap w "0051953EB9618E1C9A1F929A21A0B68540EEA2DA725B99B315F3B8B489918EF109E156193951EC7E937B1652C0BD3BB1BF073573DF883D2C34F1EF451FD46B503F00"
  let p ← fromHexUnwrap w "01FFFFFFFFFFFFFFFFFFFFFFFFFFFFFFFFFFFFFFFFFFFFFFFFFFFFFFFFFFFFFFFFFFFFFFFFFFFFFFFFFFFFFFFFFFFFFFFFFFFFFFFFFFFFFFFFFFFFFFFFFFFFFFFFFF"
  let gx ← fromHexUnwrap w "00C6858E06B70404E9CD9E3ECB662395B4429C648139053FB521F828AF606B4D3DBAA14B5E77EFE75928FE1DC127A2FFA8DE3348B3C1856A429BF97E7E31C2E5BD66"
  let gy ← fromHexUnwrap w "011839296A789A3BC0045C8A5FB42C7D1BD998F54449579B446817AFBD17273E662C97EE72995EF42640C550B9013FAD0761353C7086A272C24088BE94769FD16650"
  let n ← fromHexUnwrap w "01FFFFFFFFFFFFFFFFFFFFFFFFFFFFFFFFFFFFFFFFFFFFFFFFFFFFFFFFFFFFFFFFFA51868783BF2F966B7FCC0148F709A5D03BB5C9B8899C47AEBB6FB71E91386409"
  return { curve := ⟨a, b, p⟩, basePoint := ⟨gx, gy⟩, order := n, cofactor := 1 }

/-- `/repo/tests/crypto/curves.rs:42-74` `brainpool_p256r1`. -/
def brainpoolP256r1 (w : Nat) : Out ε Params := do
  let a ← fromHexUnwrap w "7D5A0975FC2C3057EEF67530417AFFE7FB8055C126DC5C6CE94A4B44F330B5D9"
  let b ← fromHexUnwrap w "26DC5C6CE94A4B44F330B5D9BBD77CBF958416295CF7E1CE6BCCDC18FF8C07B6"
  let p ← fromHexUnwrap w "A9FB57DBA1EEA9BC3E660A909D838D726E3BF623D52620282013481D1F6E5377"
  let gx ← fromHexUnwrap w "8BD2AEB9CB7E57CB2C4B482FFC81B7AFB9DE27E1E3BD23C23A4453BD9ACE3262"
  let gy ← fromHexUnwrap w "547EF835C3DAC4FD97F8461A14611DC9C27745132DED8E545C1D54C72F046997"
  let n ← fromHexUnwrap w "A9FB57DBA1EEA9BC3E660A909D838D718C397AA3B561A6F7901E0E82974856A7"
  return { curve := ⟨a, b, p⟩, basePoint := ⟨gx, gy⟩, order := n, cofactor := 1 }

/-- `/repo/tests/crypto/curves.rs:76-108` `brainpool_p320r1`. -/
def brainpoolP320r1 (w : Nat) : Out ε Params := do
  let a ← fromHexUnwrap w "3EE30B568FBAB0F883CCEBD46D3F3BB8A2A73513F5EB79DA66190EB085FFA9F492F375A97D860EB4"
  let b ← fromHexUnwrap w "520883949DFDBC42D3AD198640688A6FE13F41349554B49ACC31DCCD884539816F5EB4AC8FB1F1A6"
  let p ← fromHexUnwrap w "D35E472036BC4FB7E13C785ED201E065F98FCFA6F6F40DEF4F92B9EC7893EC28FCD412B1F1B32E27"
  let gx ← fromHexUnwrap w "43BD7E9AFB53D8B85289BCC48EE5BFE6F20137D10A087EB6E7871E2A10A599C710AF8D0D39E20611"
  let gy ← fromHexUnwrap w "14FDD05545EC1CC8AB4093247F77275E0743FFED117182EAA9C77877AAAC6AC7D35245D1692E8EE1"
  let n ← fromHexUnwrap w "D35E472036BC4FB7E13C785ED201E065F98FCFA5B68F12A32D482EC7EE8658E98691555B44C59311"
  return { curve := ⟨a, b, p⟩, basePoint := ⟨gx, gy⟩, order := n, cofactor := 1 }

/-- `/repo/tests/crypto/curves.rs:110-142` `brainpool_p384r1`. -/
def brainpoolP384r1 (w : Nat) : Out ε Params := do
  let a ← fromHexUnwrap w "7BC382C63D8C150C3C72080ACE05AFA0C2BEA28E4FB22787139165EFBA91F90F8AA5814A503AD4EB04A8C7DD22CE2826"
  let b ← fromHexUnwrap w "04A8C7DD22CE28268B39B55416F0447C2FB77DE107DCD2A62E880EA53EEB62D57CB4390295DBC9943AB78696FA504C11"
  let p ← fromHexUnwrap w "8CB91E82A3386D280F5D6F7E50E641DF152F7109ED5456B412B1DA197FB71123ACD3A729901D1A71874700133107EC53"
  let gx ← fromHexUnwrap w "1D1C64F068CF45FFA2A63A81B7C13F6B8847A3E77EF14FE3DB7FCAFE0CBD10E8E826E03436D646AAEF87B2E247D4AF1E"
  let gy ← fromHexUnwrap w "8ABE1D7520F9C2A45CB1EB8E95CFD55262B70B29FEEC5864E19C054FF99129280E4646217791811142820341263C5315"
  let n ← fromHexUnwrap w "8CB91E82A3386D280F5D6F7E50E641DF152F7109ED5456B31F166E6CAC0425A7CF3AB6AF6B7FC3103B883202E9046565"
  return { curve := ⟨a, b, p⟩, basePoint := ⟨gx, gy⟩, order := n, cofactor := 1 }

/-- `/repo/tests/crypto/curves.rs:144-176` `brainpool_p512r1`. -/
def brainpoolP512r1 (w : Nat) : Out ε Params := do
  let a ← fromHexUnwrap w "7830A3318B603B89E2327145AC234CC594CBDD8D3DF91610A83441CAEA9863BC2DED5D5AA8253AA10A2EF1C98B9AC8B57F1117A72BF2C7B9E7C1AC4D77FC94CA"
  let b ← fromHexUnwrap w "3DF91610A83441CAEA9863BC2DED5D5AA8253AA10A2EF1C98B9AC8B57F1117A72BF2C7B9E7C1AC4D77FC94CADC083E67984050B75EBAE5DD2809BD638016F723"
  let p ← fromHexUnwrap w "AADD9DB8DBE9C48B3FD4E6AE33C9FC07CB308DB3B3C9D20ED6639CCA703308717D4D9B009BC66842AECDA12AE6A380E62881FF2F2D82C68528AA6056583A48F3"
  let gx ← fromHexUnwrap w "81AEE4BDD82ED9645A21322E9C4C6A9385ED9F70B5D916C1B43B62EEF4D0098EFF3B1F78E2D0D48D50D1687B93B97D5F7C6D5047406A5E688B352209BCB9F822"
  let gy ← fromHexUnwrap w "7DDE385D566332ECC0EABFA9CF7822FDF209F70024A57B1AA000C55B881F8111B2DCDE494A5F485E5BCA4BD88A2763AED1CA2B2FA8F0540678CD1E0F3AD80892"
  let n ← fromHexUnwrap w "AADD9DB8DBE9C48B3FD4E6AE33C9FC07CB308DB3B3C9D20ED6639CCA70330870553E5C414CA92619418661197FAC10471DB1D381085DDADDB58796829CA90069"
  return { curve := ⟨a, b, p⟩, basePoint := ⟨gx, gy⟩, order := n, cofactor := 1 }

end LCT.Crypto
