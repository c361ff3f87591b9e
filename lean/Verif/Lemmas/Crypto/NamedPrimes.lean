import Verif.Lemmas.Math.Pocklington
import Mathlib.Tactic.NormNum.Prime

/-!
# The base point orders of the named curves are prime

By Pocklington certificates.
-/

namespace LCT.Named
open LCT.Pocklington

theorem prime_1288691 : Nat.Prime 1288691 :=
  prime_of_check _ [⟨23, 0, 2⟩, ⟨13, 0, 2⟩, ⟨5, 0, 2⟩] (by decide +kernel) (by
    simp only [List.forall_mem_cons]
    exact ⟨(by norm_num), (by norm_num), (by norm_num), by simp⟩)

theorem prime_5071793 : Nat.Prime 5071793 :=
  prime_of_check _ [⟨28817, 0, 2⟩] (by decide +kernel) (by
    simp only [List.forall_mem_cons]
    exact ⟨(by norm_num), by simp⟩)

theorem prime_8332699 : Nat.Prime 8332699 :=
  prime_of_check _ [⟨251, 0, 2⟩, ⟨11, 0, 2⟩, ⟨3, 0, 2⟩] (by decide +kernel) (by
    simp only [List.forall_mem_cons]
    exact ⟨(by norm_num), (by norm_num), (by norm_num), by simp⟩)

theorem prime_8463023 : Nat.Prime 8463023 :=
  prime_of_check _ [⟨37447, 0, 2⟩] (by decide +kernel) (by
    simp only [List.forall_mem_cons]
    exact ⟨(by norm_num), by simp⟩)

theorem prime_9863677 : Nat.Prime 9863677 :=
  prime_of_check _ [⟨311, 0, 2⟩, ⟨3, 1, 5⟩, ⟨2, 1, 2⟩] (by decide +kernel) (by
    simp only [List.forall_mem_cons]
    exact ⟨(by norm_num), (by norm_num), (by norm_num), by simp⟩)

theorem prime_11105363 : Nat.Prime 11105363 :=
  prime_of_check _ [⟨10909, 0, 2⟩] (by decide +kernel) (by
    simp only [List.forall_mem_cons]
    exact ⟨(by norm_num), by simp⟩)

theorem prime_11543603 : Nat.Prime 11543603 :=
  prime_of_check _ [⟨43397, 0, 2⟩] (by decide +kernel) (by
    simp only [List.forall_mem_cons]
    exact ⟨(by norm_num), by simp⟩)

theorem prime_11594917 : Nat.Prime 11594917 :=
  prime_of_check _ [⟨59, 0, 2⟩, ⟨53, 0, 2⟩, ⟨3, 1, 5⟩] (by decide +kernel) (by
    simp only [List.forall_mem_cons]
    exact ⟨(by norm_num), (by norm_num), (by norm_num), by simp⟩)

theorem prime_41802583 : Nat.Prime 41802583 :=
  prime_of_check _ [⟨50123, 0, 2⟩] (by decide +kernel) (by
    simp only [List.forall_mem_cons]
    exact ⟨(by norm_num), by simp⟩)

theorem prime_821796863 : Nat.Prime 821796863 :=
  prime_of_check _ [⟨11105363, 0, 2⟩] (by decide +kernel) (by
    simp only [List.forall_mem_cons]
    exact ⟨prime_11105363, by simp⟩)

theorem prime_1454493979 : Nat.Prime 1454493979 :=
  prime_of_check _ [⟨11543603, 0, 2⟩] (by decide +kernel) (by
    simp only [List.forall_mem_cons]
    exact ⟨prime_11543603, by simp⟩)

theorem prime_4484624887 : Nat.Prime 4484624887 :=
  prime_of_check _ [⟨7457, 0, 2⟩, ⟨37, 0, 2⟩] (by decide +kernel) (by
    simp only [List.forall_mem_cons]
    exact ⟨(by norm_num), (by norm_num), by simp⟩)

theorem prime_205122193411 : Nat.Prime 205122193411 :=
  prime_of_check _ [⟨39251, 0, 2⟩, ⟨5, 0, 2⟩, ⟨3, 0, 3⟩] (by decide +kernel) (by
    simp only [List.forall_mem_cons]
    exact ⟨(by norm_num), (by norm_num), (by norm_num), by simp⟩)

theorem prime_37344768852931 : Nat.Prime 37344768852931 :=
  prime_of_check _ [⟨9863677, 0, 2⟩] (by decide +kernel) (by
    simp only [List.forall_mem_cons]
    exact ⟨prime_9863677, by simp⟩)

theorem prime_432621809776543 : Nat.Prime 432621809776543 :=
  prime_of_check _ [⟨821796863, 0, 2⟩] (by decide +kernel) (by
    simp only [List.forall_mem_cons]
    exact ⟨prime_821796863, by simp⟩)

theorem prime_1674656872585139 : Nat.Prime 1674656872585139 :=
  prime_of_check _ [⟨41802583, 0, 2⟩] (by decide +kernel) (by
    simp only [List.forall_mem_cons]
    exact ⟨prime_41802583, by simp⟩)

theorem prime_4161929304309191 : Nat.Prime 4161929304309191 :=
  prime_of_check _ [⟨205122193411, 0, 2⟩] (by decide +kernel) (by
    simp only [List.forall_mem_cons]
    exact ⟨prime_205122193411, by simp⟩)

theorem prime_55942463741690639 : Nat.Prime 55942463741690639 :=
  prime_of_check _ [⟨37344768852931, 0, 2⟩] (by decide +kernel) (by
    simp only [List.forall_mem_cons]
    exact ⟨prime_37344768852931, by simp⟩)

theorem prime_191760954274777244141857 : Nat.Prime 191760954274777244141857 :=
  prime_of_check _ [⟨1288691, 0, 2⟩, ⟨4289, 0, 2⟩, ⟨3, 0, 2⟩, ⟨2, 4, 5⟩] (by decide +kernel) (by
    simp only [List.forall_mem_cons]
    exact ⟨prime_1288691, (by norm_num), (by norm_num), (by norm_num), by simp⟩)

theorem prime_136401162692544977256234449 : Nat.Prime 136401162692544977256234449 :=
  prime_of_check _ [⟨432621809776543, 0, 2⟩] (by decide +kernel) (by
    simp only [List.forall_mem_cons]
    exact ⟨prime_432621809776543, by simp⟩)

theorem prime_190455129210693390224369129 : Nat.Prime 190455129210693390224369129 :=
  prime_of_check _ [⟨1674656872585139, 0, 2⟩] (by decide +kernel) (by
    simp only [List.forall_mem_cons]
    exact ⟨prime_1674656872585139, by simp⟩)

theorem prime_34646440928557194402992574983797 : Nat.Prime 34646440928557194402992574983797 :=
  prime_of_check _ [⟨136401162692544977256234449, 0, 2⟩] (by decide +kernel) (by
    simp only [List.forall_mem_cons]
    exact ⟨prime_136401162692544977256234449, by simp⟩)

theorem prime_375503554633724504423937478103159147573209 : Nat.Prime 375503554633724504423937478103159147573209 :=
  prime_of_check _ [⟨34646440928557194402992574983797, 0, 2⟩] (by decide +kernel) (by
    simp only [List.forall_mem_cons]
    exact ⟨prime_34646440928557194402992574983797, by simp⟩)

theorem prime_2788900573532341797131599550190476443808598899 : Nat.Prime 2788900573532341797131599550190476443808598899 :=
  prime_of_check _ [⟨1454493979, 0, 2⟩, ⟨11594917, 0, 2⟩, ⟨5071793, 0, 2⟩] (by decide +kernel) (by
    simp only [List.forall_mem_cons]
    exact ⟨prime_1454493979, prime_11594917, prime_5071793, by simp⟩)

theorem prime_56834084706324953499635029374333218339957513609 : Nat.Prime 56834084706324953499635029374333218339957513609 :=
  prime_of_check _ [⟨4161929304309191, 0, 2⟩, ⟨4484624887, 0, 2⟩] (by decide +kernel) (by
    simp only [List.forall_mem_cons]
    exact ⟨prime_4161929304309191, prime_4484624887, by simp⟩)

theorem prime_114430077720284863765762092766225391679591020381 : Nat.Prime 114430077720284863765762092766225391679591020381 :=
  prime_of_check _ [⟨190455129210693390224369129, 0, 2⟩] (by decide +kernel) (by
    simp only [List.forall_mem_cons]
    exact ⟨prime_190455129210693390224369129, by simp⟩)

theorem prime_669909697361913545660898382546007419518544524592370543 : Nat.Prime 669909697361913545660898382546007419518544524592370543 :=
  prime_of_check _ [⟨2788900573532341797131599550190476443808598899, 0, 2⟩] (by decide +kernel) (by
    simp only [List.forall_mem_cons]
    exact ⟨prime_2788900573532341797131599550190476443808598899, by simp⟩)

theorem prime_50520606258875818707470860153287666700917696099933389351507 : Nat.Prime 50520606258875818707470860153287666700917696099933389351507 :=
  prime_of_check _ [⟨375503554633724504423937478103159147573209, 0, 2⟩] (by decide +kernel) (by
    simp only [List.forall_mem_cons]
    exact ⟨prime_375503554633724504423937478103159147573209, by simp⟩)

theorem prime_1059392654943455286185473617842338478315215895509773412096307 : Nat.Prime 1059392654943455286185473617842338478315215895509773412096307 :=
  prime_of_check _ [⟨55942463741690639, 0, 2⟩, ⟨8463023, 0, 2⟩, ⟨248431, 0, 2⟩, ⟨251, 0, 2⟩] (by decide +kernel) (by
    simp only [List.forall_mem_cons]
    exact ⟨prime_55942463741690639, prime_8463023, (by norm_num), (by norm_num), by simp⟩)

theorem prime_90050068090664042551646936303486902724615855323314057604193773 : Nat.Prime 90050068090664042551646936303486902724615855323314057604193773 :=
  prime_of_check _ [⟨669909697361913545660898382546007419518544524592370543, 0, 2⟩] (by decide +kernel) (by
    simp only [List.forall_mem_cons]
    exact ⟨prime_669909697361913545660898382546007419518544524592370543, by simp⟩)

theorem prime_4982806528470961888578867896009647265488138691022009860168845631273 : Nat.Prime 4982806528470961888578867896009647265488138691022009860168845631273 :=
  prime_of_check _ [⟨191760954274777244141857, 0, 2⟩, ⟨8332699, 0, 2⟩, ⟨516521, 0, 2⟩] (by decide +kernel) (by
    simp only [List.forall_mem_cons]
    exact ⟨prime_191760954274777244141857, prime_8332699, (by norm_num), by simp⟩)

theorem prime_26959946667150639794667015087019625940457807714424391721682722368061 : Nat.Prime 26959946667150639794667015087019625940457807714424391721682722368061 :=
  prime_of_check _ [⟨50520606258875818707470860153287666700917696099933389351507, 0, 2⟩] (by decide +kernel) (by
    simp only [List.forall_mem_cons]
    exact ⟨prime_50520606258875818707470860153287666700917696099933389351507, by simp⟩)

theorem prime_23341373081361435103090946041083073851794115571864009670215941767494551877 : Nat.Prime 23341373081361435103090946041083073851794115571864009670215941767494551877 :=
  prime_of_check _ [⟨56834084706324953499635029374333218339957513609, 0, 2⟩] (by decide +kernel) (by
    simp only [List.forall_mem_cons]
    exact ⟨prime_56834084706324953499635029374333218339957513609, by simp⟩)

theorem prime_4271386466502519123378319257166758282929862876911918307708639947947974242171 : Nat.Prime 4271386466502519123378319257166758282929862876911918307708639947947974242171 :=
  prime_of_check _ [⟨114430077720284863765762092766225391679591020381, 0, 2⟩] (by decide +kernel) (by
    simp only [List.forall_mem_cons]
    exact ⟨prime_114430077720284863765762092766225391679591020381, by simp⟩)

theorem prime_76884956397045344220809746629001649092737531784414529538755519063063536359079 : Nat.Prime 76884956397045344220809746629001649092737531784414529538755519063063536359079 :=
  prime_of_check _ [⟨4271386466502519123378319257166758282929862876911918307708639947947974242171, 0, 2⟩] (by decide +kernel) (by
    simp only [List.forall_mem_cons]
    exact ⟨prime_4271386466502519123378319257166758282929862876911918307708639947947974242171, by simp⟩)

theorem prime_299589410500344960818634453344053290288849906371853185689121682914766027672438458623 : Nat.Prime 299589410500344960818634453344053290288849906371853185689121682914766027672438458623 :=
  prime_of_check _ [⟨23341373081361435103090946041083073851794115571864009670215941767494551877, 0, 2⟩] (by decide +kernel) (by
    simp only [List.forall_mem_cons]
    exact ⟨prime_23341373081361435103090946041083073851794115571864009670215941767494551877, by simp⟩)

theorem prime_3055465788140352002733946906144561090641249606160407884365391979704929268480326390471 : Nat.Prime 3055465788140352002733946906144561090641249606160407884365391979704929268480326390471 :=
  prime_of_check _ [⟨1059392654943455286185473617842338478315215895509773412096307, 0, 2⟩] (by decide +kernel) (by
    simp only [List.forall_mem_cons]
    exact ⟨prime_1059392654943455286185473617842338478315215895509773412096307, by simp⟩)

theorem prime_23337925407708917343269873493319607638879341485914224746228038546474382183428298476287118961279 : Nat.Prime 23337925407708917343269873493319607638879341485914224746228038546474382183428298476287118961279 :=
  prime_of_check _ [⟨4982806528470961888578867896009647265488138691022009860168845631273, 0, 2⟩] (by decide +kernel) (by
    simp only [List.forall_mem_cons]
    exact ⟨prime_4982806528470961888578867896009647265488138691022009860168845631273, by simp⟩)

theorem prime_1763593322239166354161909842446019520889512772717686063760686124016784784845843468355685258203921 : Nat.Prime 1763593322239166354161909842446019520889512772717686063760686124016784784845843468355685258203921 :=
  prime_of_check _ [⟨299589410500344960818634453344053290288849906371853185689121682914766027672438458623, 0, 2⟩] (by decide +kernel) (by
    simp only [List.forall_mem_cons]
    exact ⟨prime_299589410500344960818634453344053290288849906371853185689121682914766027672438458623, by simp⟩)

theorem prime_21659270770119316173069236842332604979796116387017648600075645274821611501358515537962695117368903252229601718723941 : Nat.Prime 21659270770119316173069236842332604979796116387017648600075645274821611501358515537962695117368903252229601718723941 :=
  prime_of_check _ [⟨90050068090664042551646936303486902724615855323314057604193773, 0, 2⟩] (by decide +kernel) (by
    simp only [List.forall_mem_cons]
    exact ⟨prime_90050068090664042551646936303486902724615855323314057604193773, by simp⟩)

theorem prime_39402006196394479212279040100143613805079739270465446667946905279627659399113263569398956308152294913554433653942643 : Nat.Prime 39402006196394479212279040100143613805079739270465446667946905279627659399113263569398956308152294913554433653942643 :=
  prime_of_check _ [⟨3055465788140352002733946906144561090641249606160407884365391979704929268480326390471, 0, 2⟩] (by decide +kernel) (by
    simp only [List.forall_mem_cons]
    exact ⟨prime_3055465788140352002733946906144561090641249606160407884365391979704929268480326390471, by simp⟩)

theorem prime_8948962207650232551656602815159153422162609644098354511344597187200057010413418528378981730643524959857451398370029280583094215613882043973354392115544169 : Nat.Prime 8948962207650232551656602815159153422162609644098354511344597187200057010413418528378981730643524959857451398370029280583094215613882043973354392115544169 :=
  prime_of_check _ [⟨23337925407708917343269873493319607638879341485914224746228038546474382183428298476287118961279, 0, 2⟩] (by decide +kernel) (by
    simp only [List.forall_mem_cons]
    exact ⟨prime_23337925407708917343269873493319607638879341485914224746228038546474382183428298476287118961279, by simp⟩)

end LCT.Named
