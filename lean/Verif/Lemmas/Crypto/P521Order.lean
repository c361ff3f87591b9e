import Verif.Lemmas.Crypto.P521Root
import Verif.Lemmas.Math.CertifySplit

/-!
# The order of the base point of P-521

In five steps; the points in between are given.
-/

namespace LCT.Named.secp521r1
open LCT.Spec LCT.Certify

def k0 : Nat := 2658455991569831745807614120560689151
def h0 : Nat × Nat := (2391543482326218346172369175839179212828858840918114990087206583207998963188656181598727833799130785461075906620021445689466883946499417522960681881797991933,
  2557729849919098742229444279405014164267518655971981332050959617878470022212657617495289537328270714173362000939126931020414867256146850108867941206387437163)

def k1 : Nat := 3369993333393829974333376885877453834204643052817571560137951281151
def h1 : Nat × Nat := (4218824310844866268019220060624493484552408776786315058791306712221696945956475266175379447607092938049600408152850954400959858967948958999069388007488665164,
  2706148330298490563177210036898538058635238452769613404175573744028708558934836490731884256854760831254521380262191990050069571730133661982029545039999437604)

def k2 : Nat := 4271974071841820164790043412339104229205409044713305539894083215644439451561280690647749648920470
def h2 : Nat × Nat := (3800828492230469711372598802359338765312418809236589234748751664577656454583551974712321789960153230268546210515586473591912811054179234793015302197210440145,
  6135349257998025683167916564446671311031393940979204781996265416784325734827776877689108640240664050854287239395709378796864319185769509731364266288744163564)

def k3 : Nat := 5415370496329716522614090203404460358274291162843391748379842930887932241807862026026108343024465491199759744149029112197635227
def h3 : Nat × Nat := (4054446700316166180953018199352041871355257135793381489871232908388939389684133078211238737484192726837042035687523745132859232242794777965160817521303733599,
  2871737762531534536461383908885847296631363514321868792558480738082459816636541351086597522751167594635449730702640628129455114646937817703315426715621148193)

theorem mul0 : mul NamedCurve.secp521r1.p NamedCurve.secp521r1.a (NamedCurve.secp521r1.gx, NamedCurve.secp521r1.gy) 121 k0 = some h0 := by decide +kernel

theorem climb1 : climb NamedCurve.secp521r1.p NamedCurve.secp521r1.a (NamedCurve.secp521r1.gx, NamedCurve.secp521r1.gy) h0 100 k1 = some h1 := by decide +kernel

theorem mul1 : mul NamedCurve.secp521r1.p NamedCurve.secp521r1.a (NamedCurve.secp521r1.gx, NamedCurve.secp521r1.gy) 221 k1 = some h1 :=
  mul_step 100 k1 (by decide +kernel) (by decide +kernel) mul0 climb1

theorem climb2 : climb NamedCurve.secp521r1.p NamedCurve.secp521r1.a (NamedCurve.secp521r1.gx, NamedCurve.secp521r1.gy) h1 100 k2 = some h2 := by decide +kernel

theorem mul2 : mul NamedCurve.secp521r1.p NamedCurve.secp521r1.a (NamedCurve.secp521r1.gx, NamedCurve.secp521r1.gy) 321 k2 = some h2 :=
  mul_step 100 k2 (by decide +kernel) (by decide +kernel) mul1 climb2

theorem climb3 : climb NamedCurve.secp521r1.p NamedCurve.secp521r1.a (NamedCurve.secp521r1.gx, NamedCurve.secp521r1.gy) h2 100 k3 = some h3 := by decide +kernel

theorem mul3 : mul NamedCurve.secp521r1.p NamedCurve.secp521r1.a (NamedCurve.secp521r1.gx, NamedCurve.secp521r1.gy) 421 k3 = some h3 :=
  mul_step 100 k3 (by decide +kernel) (by decide +kernel) mul2 climb3

theorem climb4 : climb NamedCurve.secp521r1.p NamedCurve.secp521r1.a (NamedCurve.secp521r1.gx, NamedCurve.secp521r1.gy) h3 100 (NamedCurve.secp521r1.n - 1) = some (NamedCurve.secp521r1.gx, NamedCurve.secp521r1.p - NamedCurve.secp521r1.gy) := by decide +kernel

theorem log_n : NamedCurve.secp521r1.n.log2 + 1 = 521 := by decide +kernel

theorem mul : Certify.mul NamedCurve.secp521r1.p NamedCurve.secp521r1.a (NamedCurve.secp521r1.gx, NamedCurve.secp521r1.gy) (NamedCurve.secp521r1.n.log2 + 1)
    (NamedCurve.secp521r1.n - 1) = some (NamedCurve.secp521r1.gx, NamedCurve.secp521r1.p - NamedCurve.secp521r1.gy) := by
  rw [log_n]
  exact mul_step 100 (NamedCurve.secp521r1.n - 1) (by decide +kernel) (by decide +kernel) mul3 climb4

end LCT.Named.secp521r1
