import Mathlib.Data.Rat.Defs
import Mathlib.Algebra.Order.Field.Rat

/-!
The coefficient tables read by `Inoue14._load_data` (igm.py lines 66-84): `/repo/py/redrock/data/LAFcoeff.txt` and `DLAcoeff.txt`, as exact decimals.
-/
namespace Redrock

/-- One line of the Lyman series: wavelength, the three forest coefficients, the two DLA coefficients. -/
structure InoueLine where
  lam : ℚ
  laf1 : ℚ
  laf2 : ℚ
  laf3 : ℚ
  dla1 : ℚ
  dla2 : ℚ

/-- data/LAFcoeff.txt, data/DLAcoeff.txt lines 1-39 (the wavelength columns of the two files agree). -/
def inoueLines : List InoueLine :=
  [⟨121567/100, 10561/625000, 235379/100000000, 102611/1000000000, 80849/500000000, 107799/2000000000⟩,
   ⟨25643/25, 469229/100000000, 5229/8000000, 14247/500000000, 154539/1000000000, 515129/10000000000⟩,
   ⟨972537/1000, 111949/50000000, 77971/250000000, 67981/5000000000, 149767/1000000000, 249611/5000000000⟩,
   ⟨949743/1000, 131901/100000000, 36747/200000000, 400487/50000000000, 146031/1000000000, 486769/10000000000⟩,
   ⟨937803/1000, 3401/3906250, 379/3125000, 528707/100000000000, 142893/1000000000, 59539/1250000000⟩,
   ⟨232687/250, 617843/1000000000, 5379/62500000, 187593/50000000000, 140159/1000000000, 116799/2500000000⟩,
   ⟨463113/500, 115231/250000000, 128411/2000000000, 279897/100000000000, 68857/500000000, 57381/1250000000⟩,
   ⟨18463/20, 356887/1000000000, 99427/2000000000, 2709/1250000000, 27099/200000000, 9033/200000000⟩,
   ⟨920963/1000, 142139/500000000, 49499/1250000000, 43157/25000000000, 33363/250000000, 444841/10000000000⟩,
   ⟨114919/125, 231771/1000000000, 322851/10000000000, 140743/100000000000, 131561/1000000000, 54817/1250000000⟩,
   ⟨918129/1000, 48087/250000000, 8373/312500000, 29201/25000000000, 25957/200000000, 432617/10000000000⟩,
   ⟨917181/1000, 32431/200000000, 112939/5000000000, 984689/1000000000000, 128117/1000000000, 26691/625000000⟩,
   ⟨916429/1000, 69249/500000000, 7717/400000000, 841033/1000000000000, 6327/50000000, 421799/10000000000⟩,
   ⟨114478/125, 119611/1000000000, 33323/2000000000, 36317/50000000000, 125041/1000000000, 104201/2500000000⟩,
   ⟨915329/1000, 52157/500000000, 72653/5000000000, 316723/500000000000, 61807/500000000, 206023/5000000000⟩,
   ⟨914919/1000, 917397/10000000000, 127791/10000000000, 557091/1000000000000, 15281/125000000, 203747/5000000000⟩,
   ⟨114322/125, 50799/625000000, 113219/10000000000, 123391/250000000000, 60469/500000000, 403127/10000000000⟩,
   ⟨457143/500, 725069/10000000000, 101/10000000, 440299/1000000000000, 119681/1000000000, 199469/5000000000⟩,
   ⟨914039/1000, 650549/10000000000, 453099/50000000000, 395047/1000000000000, 118469/1000000000, 24681/625000000⟩,
   ⟨456913/500, 9169/156250000, 817421/100000000000, 71269/200000000000, 58649/500000000, 78199/2000000000⟩,
   ⟨913641/1000, 265959/5000000000, 740949/100000000000, 5047/15625000000, 116167/1000000000, 15489/400000000⟩,
   ⟨22837/25, 484261/10000000000, 674563/100000000000, 73517/250000000000, 115071/1000000000, 95893/2500000000⟩,
   ⟨913339/1000, 22137/500000000, 308363/50000000000, 134427/500000000000, 114011/1000000000, 380037/10000000000⟩,
   ⟨182643/200, 406311/10000000000, 565981/100000000000, 246733/1000000000000, 112983/1000000000, 376609/10000000000⟩,
   ⟨114138/125, 373821/10000000000, 520723/100000000000, 227003/1000000000000, 27993/250000000, 373241/10000000000⟩,
   ⟨456503/500, 345377/10000000000, 240551/50000000000, 209731/1000000000000, 55501/500000000, 74001/2000000000⟩,
   ⟨456459/500, 319891/10000000000, 445601/100000000000, 38851/200000000000, 110051/1000000000, 91709/2500000000⟩,
   ⟨912839/1000, 29711/1000000000, 413867/100000000000, 180421/1000000000000, 873/8000000, 363749/10000000000⟩,
   ⟨114096/125, 55327/2000000000, 192673/50000000000, 167987/1000000000000, 5411/50000000, 180367/5000000000⟩,
   ⟨912703/1000, 129089/5000000000, 89909/25000000000, 156779/1000000000000, 107337/1000000000, 357789/10000000000⟩,
   ⟨182529/200, 241479/10000000000, 168187/50000000000, 73319/500000000000, 106473/1000000000, 354909/10000000000⟩,
   ⟨114074/125, 226347/10000000000, 9853/3125000000, 2749/20000000000, 105629/1000000000, 11003/312500000⟩,
   ⟨912543/1000, 212567/10000000000, 2961/1000000000, 129081/1000000000000, 52401/500000000, 17467/500000000⟩,
   ⟨912499/1000, 199967/10000000000, 278549/100000000000, 12143/100000000000, 103991/1000000000, 86659/2500000000⟩,
   ⟨456229/500, 47119/2500000000, 262543/100000000000, 28613/250000000000, 51599/500000000, 171997/5000000000⟩,
   ⟨45621/50, 22241/1250000000, 4957/2000000000, 108047/1000000000000, 5121/50000000, 170701/5000000000⟩,
   ⟨182477/200, 84111/5000000000, 23433/10000000000, 102153/1000000000000, 101657/1000000000, 42357/1250000000⟩,
   ⟨912353/1000, 79643/5000000000, 110941/50000000000, 241817/2500000000000, 25227/250000000, 336359/10000000000⟩,
   ⟨228081/250, 37749/2500000000, 105167/50000000000, 36677/400000000000, 12521/125000000, 66779/2000000000⟩]

end Redrock
