import Verif.Lemmas.Crypto.P521Chain3

/-!
# P-521 has no point of order two
-/

namespace LCT.Named
open LCT.Spec LCT.Curve LCT.ValidCurve LCT.Pocklington

namespace secp521r1

def noRoot : NoRoot where
  c := (4860891086045056853561103990765776437896461732719963324290057395732751086103788161954116339572232800690457337429123819664279834135875092463554593205804047047,
    5623913033336113422386236864006719062755991763864609197545100619433248161746017032673051834216465799515469811516542321474225029959858163827729884161696537584,
    1001953287042776430710398404157808389686486783711671042552203031726396048646933945084221650544610877143419486981178519186421076931920775674509717542655505052)
  u0 := 4217347365266914139557443960212267452818938426834944779036201887205476139519633692529201977572576696298383780904887696008132175920949239907070655655305564393
  u1 := 3792397057851446492329021792088708927416161011315554599024045281896889645332597344606863178928498046894403056022861285059806575182932135587373953183502137441
  v0 := 5556850081864827842302249485475501585472702946772625307642304195702912034363837867267334216347521692509406916620096684956176894315447091116492501000392161958
  v1 := 2592645775458497527836362227091103884154287512470494672274301275565663408730650270660448980645397363205839490313252565391972848223674401530161387302727484004
  v2 := 3919380404691066388712376322317341026252002696138380915147944189379687824774581460974855590730258562532022938584569429027963361353339635641909491533809725330

theorem noRoot_check : Cubic.check NamedCurve.secp521r1.p (NamedCurve.secp521r1.p - NamedCurve.secp521r1.a) (NamedCurve.secp521r1.p - NamedCurve.secp521r1.b)
    noRoot.c noRoot.u0 noRoot.u1 noRoot.v0 noRoot.v1 noRoot.v2 = true := by decide +kernel

end secp521r1

end LCT.Named
