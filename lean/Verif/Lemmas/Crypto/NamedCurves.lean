import Verif.Lemmas.Crypto.NamedCheck
import Verif.Lemmas.Crypto.NamedPrimes
import Verif.Lemmas.Math.CertifySplit

/-!
# The named curves are valid

Everything is checked by computation inside the kernel.
-/

namespace LCT.Named
open LCT.Spec LCT.Curve LCT.ValidCurve

namespace secp224r1

theorem prime_n : Nat.Prime NamedCurve.secp224r1.n := prime_26959946667150639794667015087019625940457807714424391721682722368061

theorem mul : Certify.mul NamedCurve.secp224r1.p NamedCurve.secp224r1.a (NamedCurve.secp224r1.gx, NamedCurve.secp224r1.gy) (NamedCurve.secp224r1.n.log2 + 1)
    (NamedCurve.secp224r1.n - 1) = some (NamedCurve.secp224r1.gx, NamedCurve.secp224r1.p - NamedCurve.secp224r1.gy) := by decide +kernel

def noRoot : NoRoot where
  c := (13007951209251912699848910225737052564727108533249858001778075138108,
    6736638939299569244310158594083072418848545257754494280867682426394,
    20455971062524683444742559974151104391194361993401379142621028729827)
  u0 := 9070461458155291254317755508530519593526533612090375268405278768450
  u1 := 19210574226754847695534190008803229529388947295036747370397045658491
  v0 := 1261710631285627074303005901530361786216288604486499842249704943048
  v1 := 4447412785031720342771701563499662000791675740805516550464163634437
  v2 := 9439789507511725786058244597052783711805086828869674293526675889612

theorem noRoot_check : Cubic.check NamedCurve.secp224r1.p (NamedCurve.secp224r1.p - NamedCurve.secp224r1.a) (NamedCurve.secp224r1.p - NamedCurve.secp224r1.b)
    noRoot.c noRoot.u0 noRoot.u1 noRoot.v0 noRoot.v1 noRoot.v2 = true := by decide +kernel

theorem checked : Checked NamedCurve.secp224r1 where
  prime_n := prime_n
  onCurve := ⟨by decide +kernel, by decide +kernel, by decide +kernel, by decide +kernel, mul⟩
  two_le := by decide +kernel
  square := by decide +kernel
  a_le := by decide +kernel
  b_le := by decide +kernel
  third := by decide +kernel
  root := ⟨noRoot, noRoot_check⟩
  disc := by decide +kernel
  b_ne := by decide +kernel

end secp224r1

namespace secp384r1

theorem prime_n : Nat.Prime NamedCurve.secp384r1.n := prime_39402006196394479212279040100143613805079739270465446667946905279627659399113263569398956308152294913554433653942643

def k0 : Nat := 19342813113834066795298815

def h0 : Nat × Nat :=
  (19053807244375333010681816090139830316021210216268436137896790662770638626238061750712363672491847683523688844529904,
    4836675322263722818724766842478236153560140330709317218266262657864052669621483446441337248806503173584843533076996)

def k1 : Nat := 24519928653854221733733552434404946937899825954937634815

def h1 : Nat × Nat :=
  (34517477080373111062201032794026454436444884932431042690275562266722600050129996801512486062381137570431813815615759,
    1124188797951716446133927466023475902409491300038541035285761188712744010837325157828674345949832854686455782203538)

def k2 : Nat := 31082702275611665134711390509176302506278509424834232340027903518579704308930114068699

def h2 : Nat × Nat :=
  (11236118716434708222482905350146564919284671047207310168768537530024493729893184105440615205768078140888080053457863,
    38086252919090299216555493584740069704567320680866603184816583934547359010668719061105760995145702867475594784356059)

theorem mul0 : Certify.mul NamedCurve.secp384r1.p NamedCurve.secp384r1.a (NamedCurve.secp384r1.gx, NamedCurve.secp384r1.gy) 84 k0 = some h0 := by decide +kernel

theorem climb1 : Certify.climb NamedCurve.secp384r1.p NamedCurve.secp384r1.a (NamedCurve.secp384r1.gx, NamedCurve.secp384r1.gy) h0 100 k1 = some h1 := by decide +kernel

theorem mul1 : Certify.mul NamedCurve.secp384r1.p NamedCurve.secp384r1.a (NamedCurve.secp384r1.gx, NamedCurve.secp384r1.gy) 184 k1 = some h1 :=
  Certify.mul_step 100 k1 (by decide +kernel) (by decide +kernel) mul0 climb1

theorem climb2 : Certify.climb NamedCurve.secp384r1.p NamedCurve.secp384r1.a (NamedCurve.secp384r1.gx, NamedCurve.secp384r1.gy) h1 100 k2 = some h2 := by decide +kernel

theorem mul2 : Certify.mul NamedCurve.secp384r1.p NamedCurve.secp384r1.a (NamedCurve.secp384r1.gx, NamedCurve.secp384r1.gy) 284 k2 = some h2 :=
  Certify.mul_step 100 k2 (by decide +kernel) (by decide +kernel) mul1 climb2

theorem climb3 : Certify.climb NamedCurve.secp384r1.p NamedCurve.secp384r1.a (NamedCurve.secp384r1.gx, NamedCurve.secp384r1.gy) h2 100 (NamedCurve.secp384r1.n - 1) = some (NamedCurve.secp384r1.gx, NamedCurve.secp384r1.p - NamedCurve.secp384r1.gy) := by
  decide +kernel

theorem log_n : NamedCurve.secp384r1.n.log2 + 1 = 384 := by decide +kernel

theorem mul : Certify.mul NamedCurve.secp384r1.p NamedCurve.secp384r1.a (NamedCurve.secp384r1.gx, NamedCurve.secp384r1.gy) (NamedCurve.secp384r1.n.log2 + 1)
    (NamedCurve.secp384r1.n - 1) = some (NamedCurve.secp384r1.gx, NamedCurve.secp384r1.p - NamedCurve.secp384r1.gy) := by
  rw [log_n]
  exact Certify.mul_step 100 (NamedCurve.secp384r1.n - 1) (by decide +kernel) (by decide +kernel) mul2 climb3

def noRoot : NoRoot where
  c := (8300902441410358810024883245706595788071887638472987429650051756787010122663664392654234716054658334410824607717835,
    36451842499335230207230939190122359435795929611070366073564430331459357452117665764765104949638877581977396150453386,
    15550551877492060201127078427218509008503925815996229619149120823729355824416602968196515686102139833725391182697242)
  u0 := 33047296559504255592651188709346863485400206543726318781804127838965342233844565497607730041700790082657763121017919
  u1 := 32869823982379043685874326169836433808330785959775282655386939942853122566550201179306892395623670448475897125153980
  v0 := 23037766613497683937702734290281044719364893268180251583910224888989381657771069200037813904257325918671976092329602
  v1 := 8235438212423615602427778915669574859600037698862346933589434399495169446996583974901273360826717582835190849638831
  v2 := 12157362177932134139146813183752135342286725243554133716818896354380897714709611791313184492360272402950851405460538

theorem noRoot_check : Cubic.check NamedCurve.secp384r1.p (NamedCurve.secp384r1.p - NamedCurve.secp384r1.a) (NamedCurve.secp384r1.p - NamedCurve.secp384r1.b)
    noRoot.c noRoot.u0 noRoot.u1 noRoot.v0 noRoot.v1 noRoot.v2 = true := by decide +kernel

theorem checked : Checked NamedCurve.secp384r1 where
  prime_n := prime_n
  onCurve := ⟨by decide +kernel, by decide +kernel, by decide +kernel, by decide +kernel, mul⟩
  two_le := by decide +kernel
  square := by decide +kernel
  a_le := by decide +kernel
  b_le := by decide +kernel
  third := by decide +kernel
  root := ⟨noRoot, noRoot_check⟩
  disc := by decide +kernel
  b_ne := by decide +kernel

end secp384r1

namespace brainpoolP256r1

theorem prime_n : Nat.Prime NamedCurve.brainpoolP256r1.n := prime_76884956397045344220809746629001649092737531784414529538755519063063536359079

theorem mul : Certify.mul NamedCurve.brainpoolP256r1.p NamedCurve.brainpoolP256r1.a (NamedCurve.brainpoolP256r1.gx, NamedCurve.brainpoolP256r1.gy) (NamedCurve.brainpoolP256r1.n.log2 + 1)
    (NamedCurve.brainpoolP256r1.n - 1) = some (NamedCurve.brainpoolP256r1.gx, NamedCurve.brainpoolP256r1.p - NamedCurve.brainpoolP256r1.gy) := by decide +kernel

def noRoot : NoRoot where
  c := (6934312191461072874148100761682709823469295718683001920214272321718106639743,
    74730866787797357883289511930108312968771754820441431075655545456776372037232,
    24103594246436844333297699615940947720531226414641076004148624174016432703105)
  u0 := 30879465705171218781180964745681405181399714776702708610237084133626748968277
  u1 := 15753133352049499928809741573826840914120852639970811939764947606343843841305
  v0 := 5347744486777530706669047377084680431416082047222058099865314757079289018413
  v1 := 36567706687211352878623830248023275230139348886519930341788893933933071887964
  v2 := 57300115342307814829368171194017451425362166738975514114819334576929185469628

theorem noRoot_check : Cubic.check NamedCurve.brainpoolP256r1.p (NamedCurve.brainpoolP256r1.p - NamedCurve.brainpoolP256r1.a) (NamedCurve.brainpoolP256r1.p - NamedCurve.brainpoolP256r1.b)
    noRoot.c noRoot.u0 noRoot.u1 noRoot.v0 noRoot.v1 noRoot.v2 = true := by decide +kernel

theorem checked : Checked NamedCurve.brainpoolP256r1 where
  prime_n := prime_n
  onCurve := ⟨by decide +kernel, by decide +kernel, by decide +kernel, by decide +kernel, mul⟩
  two_le := by decide +kernel
  square := by decide +kernel
  a_le := by decide +kernel
  b_le := by decide +kernel
  third := by decide +kernel
  root := ⟨noRoot, noRoot_check⟩
  disc := by decide +kernel
  b_ne := by decide +kernel

end brainpoolP256r1

namespace brainpoolP320r1

theorem prime_n : Nat.Prime NamedCurve.brainpoolP320r1.n := prime_1763593322239166354161909842446019520889512772717686063760686124016784784845843468355685258203921

def k0 : Nat := 1097486818822821983391486466073952736

def h0 : Nat × Nat :=
  (848102563106541287233993945004150463062368229985885575161214631504678976241879334162766599397010,
    169160211505590450021608483221664436802725243469799185742816018978660418288325766382952694542682)

def k1 : Nat := 1391229824623320340749861260776801785491050820205667850154753164012

def h1 : Nat × Nat :=
  (1567413802427540406561507683798449189225684218580690153067398864513088085579171972943553337896727,
    1490813069301538952010719158907069750145008453151454861220043472108505306214095376735507593994710)

theorem mul0 : Certify.mul NamedCurve.brainpoolP320r1.p NamedCurve.brainpoolP320r1.a (NamedCurve.brainpoolP320r1.gx, NamedCurve.brainpoolP320r1.gy) 120 k0 = some h0 := by decide +kernel

theorem climb1 : Certify.climb NamedCurve.brainpoolP320r1.p NamedCurve.brainpoolP320r1.a (NamedCurve.brainpoolP320r1.gx, NamedCurve.brainpoolP320r1.gy) h0 100 k1 = some h1 := by decide +kernel

theorem mul1 : Certify.mul NamedCurve.brainpoolP320r1.p NamedCurve.brainpoolP320r1.a (NamedCurve.brainpoolP320r1.gx, NamedCurve.brainpoolP320r1.gy) 220 k1 = some h1 :=
  Certify.mul_step 100 k1 (by decide +kernel) (by decide +kernel) mul0 climb1

theorem climb2 : Certify.climb NamedCurve.brainpoolP320r1.p NamedCurve.brainpoolP320r1.a (NamedCurve.brainpoolP320r1.gx, NamedCurve.brainpoolP320r1.gy) h1 100 (NamedCurve.brainpoolP320r1.n - 1) = some (NamedCurve.brainpoolP320r1.gx, NamedCurve.brainpoolP320r1.p - NamedCurve.brainpoolP320r1.gy) := by
  decide +kernel

theorem log_n : NamedCurve.brainpoolP320r1.n.log2 + 1 = 320 := by decide +kernel

theorem mul : Certify.mul NamedCurve.brainpoolP320r1.p NamedCurve.brainpoolP320r1.a (NamedCurve.brainpoolP320r1.gx, NamedCurve.brainpoolP320r1.gy) (NamedCurve.brainpoolP320r1.n.log2 + 1)
    (NamedCurve.brainpoolP320r1.n - 1) = some (NamedCurve.brainpoolP320r1.gx, NamedCurve.brainpoolP320r1.p - NamedCurve.brainpoolP320r1.gy) := by
  rw [log_n]
  exact Certify.mul_step 100 (NamedCurve.brainpoolP320r1.n - 1) (by decide +kernel) (by decide +kernel) mul1 climb2

def noRoot : NoRoot where
  c := (941283314030726626609609621346469610223376685281248632749168619445872674242087311956580719672896,
    1627505711339090958068949504235466202138282780514312010937439761318614283544393875555582922899404,
    1478809040336180117610597128272015811705574462988368552684549269059586078146293821365194795370582)
  u0 := 1698905138133859904422703592576659888411468285208991445123739633581809689954499335736908823335669
  u1 := 1515153623756246495274968117718632301573060547001699921971601066746968619846309147336513369256574
  v0 := 122870849904181773089670971022562028177776873262791750757648614230269868632418475396154339683393
  v1 := 723011386214059723890258847105443730712169077323097966906237591005955893472217848824699974159717
  v2 := 591398295572457992264474255279168440779894522159829821427394627523920432340975599627340802408935

theorem noRoot_check : Cubic.check NamedCurve.brainpoolP320r1.p (NamedCurve.brainpoolP320r1.p - NamedCurve.brainpoolP320r1.a) (NamedCurve.brainpoolP320r1.p - NamedCurve.brainpoolP320r1.b)
    noRoot.c noRoot.u0 noRoot.u1 noRoot.v0 noRoot.v1 noRoot.v2 = true := by decide +kernel

theorem checked : Checked NamedCurve.brainpoolP320r1 where
  prime_n := prime_n
  onCurve := ⟨by decide +kernel, by decide +kernel, by decide +kernel, by decide +kernel, mul⟩
  two_le := by decide +kernel
  square := by decide +kernel
  a_le := by decide +kernel
  b_le := by decide +kernel
  third := by decide +kernel
  root := ⟨noRoot, noRoot_check⟩
  disc := by decide +kernel
  b_ne := by decide +kernel

end brainpoolP320r1

namespace brainpoolP384r1

theorem prime_n : Nat.Prime NamedCurve.brainpoolP384r1.n := prime_21659270770119316173069236842332604979796116387017648600075645274821611501358515537962695117368903252229601718723941

def k0 : Nat := 10632738460070679232443862

def h0 : Nat × Nat :=
  (399238859847114478966852450388750254741525867398811283496320321780816259995390459883824329992431006399718415924122,
    10169192720230824100158173976578606357585922912082785506636965230846279578587221095419697042448555563279174382278633)

def k1 : Nat := 13478597290978376106427911172058133329082987942867981398

def h1 : Nat × Nat :=
  (10021430601388323967837348882857399282820848016844689520904755563817326449335665709206463833142388215744317450018410,
    7340899724687542519924800757271973062175414243001196810829640433193254995358835571099448452421208158116599284411893)

def k2 : Nat := 17086151946143325251074085415130179945138116819077584429908184760678192204117552900970

def h2 : Nat × Nat :=
  (10477638132105724624488748751515443919500543226594504557960917212946981927411598182885364432239869812593256684877091,
    20269618194740110276484628053254895325143478348702871567846577810874257044227529677927939766757747535644591788560575)

theorem mul0 : Certify.mul NamedCurve.brainpoolP384r1.p NamedCurve.brainpoolP384r1.a (NamedCurve.brainpoolP384r1.gx, NamedCurve.brainpoolP384r1.gy) 84 k0 = some h0 := by decide +kernel

theorem climb1 : Certify.climb NamedCurve.brainpoolP384r1.p NamedCurve.brainpoolP384r1.a (NamedCurve.brainpoolP384r1.gx, NamedCurve.brainpoolP384r1.gy) h0 100 k1 = some h1 := by decide +kernel

theorem mul1 : Certify.mul NamedCurve.brainpoolP384r1.p NamedCurve.brainpoolP384r1.a (NamedCurve.brainpoolP384r1.gx, NamedCurve.brainpoolP384r1.gy) 184 k1 = some h1 :=
  Certify.mul_step 100 k1 (by decide +kernel) (by decide +kernel) mul0 climb1

theorem climb2 : Certify.climb NamedCurve.brainpoolP384r1.p NamedCurve.brainpoolP384r1.a (NamedCurve.brainpoolP384r1.gx, NamedCurve.brainpoolP384r1.gy) h1 100 k2 = some h2 := by decide +kernel

theorem mul2 : Certify.mul NamedCurve.brainpoolP384r1.p NamedCurve.brainpoolP384r1.a (NamedCurve.brainpoolP384r1.gx, NamedCurve.brainpoolP384r1.gy) 284 k2 = some h2 :=
  Certify.mul_step 100 k2 (by decide +kernel) (by decide +kernel) mul1 climb2

theorem climb3 : Certify.climb NamedCurve.brainpoolP384r1.p NamedCurve.brainpoolP384r1.a (NamedCurve.brainpoolP384r1.gx, NamedCurve.brainpoolP384r1.gy) h2 100 (NamedCurve.brainpoolP384r1.n - 1) = some (NamedCurve.brainpoolP384r1.gx, NamedCurve.brainpoolP384r1.p - NamedCurve.brainpoolP384r1.gy) := by
  decide +kernel

theorem log_n : NamedCurve.brainpoolP384r1.n.log2 + 1 = 384 := by decide +kernel

theorem mul : Certify.mul NamedCurve.brainpoolP384r1.p NamedCurve.brainpoolP384r1.a (NamedCurve.brainpoolP384r1.gx, NamedCurve.brainpoolP384r1.gy) (NamedCurve.brainpoolP384r1.n.log2 + 1)
    (NamedCurve.brainpoolP384r1.n - 1) = some (NamedCurve.brainpoolP384r1.gx, NamedCurve.brainpoolP384r1.p - NamedCurve.brainpoolP384r1.gy) := by
  rw [log_n]
  exact Certify.mul_step 100 (NamedCurve.brainpoolP384r1.n - 1) (by decide +kernel) (by decide +kernel) mul2 climb3

def noRoot : NoRoot where
  c := (15298734606309199264420805533508030890414563944865334671512276287980469130952691092095033434054904617589085651229424,
    11068186017202743673118810097581550772766737817903064248079785514094454210086250096998177788174923242769800729139125,
    5443622384506312450156513124064629656210090739227743791001374481785671329407903472242873611627734644954640700142187)
  u0 := 17957081898686030068453244536954453147072410901978348095914738612777059989082143497551094759613635827317327533497772
  u1 := 5318736062408103830530398522599134326283166458441988961563257683291536000831355264396545316195635205581114333439290
  v0 := 18045346159989301294719205289786962596468003789292587159741834949006371209014629163014746348076599162029150578683262
  v1 := 1976113098210081074617925902571799281931794102930411075466637102904693541261693854282593756972459711385728480861278
  v2 := 4643256948357306801182104578797069499791313285794868896678261438458615860465573791712519540292328347437871877550575

theorem noRoot_check : Cubic.check NamedCurve.brainpoolP384r1.p (NamedCurve.brainpoolP384r1.p - NamedCurve.brainpoolP384r1.a) (NamedCurve.brainpoolP384r1.p - NamedCurve.brainpoolP384r1.b)
    noRoot.c noRoot.u0 noRoot.u1 noRoot.v0 noRoot.v1 noRoot.v2 = true := by decide +kernel

theorem checked : Checked NamedCurve.brainpoolP384r1 where
  prime_n := prime_n
  onCurve := ⟨by decide +kernel, by decide +kernel, by decide +kernel, by decide +kernel, mul⟩
  two_le := by decide +kernel
  square := by decide +kernel
  a_le := by decide +kernel
  b_le := by decide +kernel
  third := by decide +kernel
  root := ⟨noRoot, noRoot_check⟩
  disc := by decide +kernel
  b_ne := by decide +kernel

end brainpoolP384r1

namespace brainpoolP512r1

theorem prime_n : Nat.Prime NamedCurve.brainpoolP512r1.n := prime_8948962207650232551656602815159153422162609644098354511344597187200057010413418528378981730643524959857451398370029280583094215613882043973354392115544169

def k0 : Nat := 3465567869163839664548027327984585

def h0 : Nat × Nat :=
  (4525458846374298270075960650914134594783408101933134541242372491477833310351918663847682457186570949940450532492025364686005978070382257930550153172971800,
    6555844573137832427265518039637207333496690991063451981660804524171161073634224102899137202483241665776787753294048167201186372322144574812119637601695078)

def k1 : Nat := 4393129189477207329693573737697647777085598004158376971059684921

def h1 : Nat × Nat :=
  (5850137601134837323255979594418335579657740662843714202406818778903901922628687871489856918004886841887793591214501871389706919704983000560285060910947750,
    1764800381021108567633250362811110782830971927579141535173954672999849540931056179460720477404920872409445479835062181619375364654630420261808037890056941)

def k2 : Nat := 5568952853920936803422536446789637401267009531986431317819711764358392406298889425554617706790

def h2 : Nat × Nat :=
  (8238242731749629913713852745111389665350559189462378945554294602082070682656360462492280309173779759836044144841730691412338806202222822353021510730392668,
    3520944252515778948460579655357437740835591306656469865020471449299302413937952100094218734222785335706506403709831324018609654192381876200761323114183123)

def k3 : Nat := 7059486427915586668234393021429084568586733770963283640429600227889214226952722628883740529597733237826838695649370137369912

def h3 : Nat × Nat :=
  (3669154490671695832155514698654708940767125383783964971810978129871425823360409800239492197225942720611383634623112937909660709475843670044871090513461814,
    4162518122024349036706838254517554277962272212897649930731936506806763996426854694016884236580352472424335288445785586299848615141116094601748447905094852)

theorem mul0 : Certify.mul NamedCurve.brainpoolP512r1.p NamedCurve.brainpoolP512r1.a (NamedCurve.brainpoolP512r1.gx, NamedCurve.brainpoolP512r1.gy) 112 k0 = some h0 := by decide +kernel

theorem climb1 : Certify.climb NamedCurve.brainpoolP512r1.p NamedCurve.brainpoolP512r1.a (NamedCurve.brainpoolP512r1.gx, NamedCurve.brainpoolP512r1.gy) h0 100 k1 = some h1 := by decide +kernel

theorem mul1 : Certify.mul NamedCurve.brainpoolP512r1.p NamedCurve.brainpoolP512r1.a (NamedCurve.brainpoolP512r1.gx, NamedCurve.brainpoolP512r1.gy) 212 k1 = some h1 :=
  Certify.mul_step 100 k1 (by decide +kernel) (by decide +kernel) mul0 climb1

theorem climb2 : Certify.climb NamedCurve.brainpoolP512r1.p NamedCurve.brainpoolP512r1.a (NamedCurve.brainpoolP512r1.gx, NamedCurve.brainpoolP512r1.gy) h1 100 k2 = some h2 := by decide +kernel

theorem mul2 : Certify.mul NamedCurve.brainpoolP512r1.p NamedCurve.brainpoolP512r1.a (NamedCurve.brainpoolP512r1.gx, NamedCurve.brainpoolP512r1.gy) 312 k2 = some h2 :=
  Certify.mul_step 100 k2 (by decide +kernel) (by decide +kernel) mul1 climb2

theorem climb3 : Certify.climb NamedCurve.brainpoolP512r1.p NamedCurve.brainpoolP512r1.a (NamedCurve.brainpoolP512r1.gx, NamedCurve.brainpoolP512r1.gy) h2 100 k3 = some h3 := by decide +kernel

theorem mul3 : Certify.mul NamedCurve.brainpoolP512r1.p NamedCurve.brainpoolP512r1.a (NamedCurve.brainpoolP512r1.gx, NamedCurve.brainpoolP512r1.gy) 412 k3 = some h3 :=
  Certify.mul_step 100 k3 (by decide +kernel) (by decide +kernel) mul2 climb3

theorem climb4 : Certify.climb NamedCurve.brainpoolP512r1.p NamedCurve.brainpoolP512r1.a (NamedCurve.brainpoolP512r1.gx, NamedCurve.brainpoolP512r1.gy) h3 100 (NamedCurve.brainpoolP512r1.n - 1) = some (NamedCurve.brainpoolP512r1.gx, NamedCurve.brainpoolP512r1.p - NamedCurve.brainpoolP512r1.gy) := by
  decide +kernel

theorem log_n : NamedCurve.brainpoolP512r1.n.log2 + 1 = 512 := by decide +kernel

theorem mul : Certify.mul NamedCurve.brainpoolP512r1.p NamedCurve.brainpoolP512r1.a (NamedCurve.brainpoolP512r1.gx, NamedCurve.brainpoolP512r1.gy) (NamedCurve.brainpoolP512r1.n.log2 + 1)
    (NamedCurve.brainpoolP512r1.n - 1) = some (NamedCurve.brainpoolP512r1.gx, NamedCurve.brainpoolP512r1.p - NamedCurve.brainpoolP512r1.gy) := by
  rw [log_n]
  exact Certify.mul_step 100 (NamedCurve.brainpoolP512r1.n - 1) (by decide +kernel) (by decide +kernel) mul3 climb4

def noRoot : NoRoot where
  c := (1171207495004172184870350888846736138287303023485176906012618281211713437683792754554487831602135902082002900222626154888623984832190465825804542440156758,
    8084232344484297400096973808713771151807802980077000277155885356866384898318055411291502310474576666020856034767232292921921200356795942821699510525638530,
    8946525268153297803678489203520925023466257242991388711508304401945186994333131060379100434708771280975428123247921998263945934840348532173621471775822375)
  u0 := 8575653026055259116208388035495114438228822483834604952796293679140902362387385097509835033174327084053052054098390708357998950852989645833149710930991394
  u1 := 1094243395426691550834966689663674906337274022479743561213870777480032843430748247411057374235432339728310212643531332425208035661911035219991667991224939
  v0 := 1803314254406975735450288165685996255159518649509801042516748854645051387409671406770237299640480790704019033082794117735071555073817603589011800439246700
  v1 := 5423510712171489546644718125848465800445423157029586731376840833885116518002476487579816819625716701205282987784671943974892074197635932083426899437475869
  v2 := 1980640283309979095730852824049519563548238190526698414050554203846063330593484879663419473345296546803597274808794758955751942903882298593095810355797106

theorem noRoot_check : Cubic.check NamedCurve.brainpoolP512r1.p (NamedCurve.brainpoolP512r1.p - NamedCurve.brainpoolP512r1.a) (NamedCurve.brainpoolP512r1.p - NamedCurve.brainpoolP512r1.b)
    noRoot.c noRoot.u0 noRoot.u1 noRoot.v0 noRoot.v1 noRoot.v2 = true := by decide +kernel

theorem checked : Checked NamedCurve.brainpoolP512r1 where
  prime_n := prime_n
  onCurve := ⟨by decide +kernel, by decide +kernel, by decide +kernel, by decide +kernel, mul⟩
  two_le := by decide +kernel
  square := by decide +kernel
  a_le := by decide +kernel
  b_le := by decide +kernel
  third := by decide +kernel
  root := ⟨noRoot, noRoot_check⟩
  disc := by decide +kernel
  b_ne := by decide +kernel

end brainpoolP512r1

end LCT.Named
