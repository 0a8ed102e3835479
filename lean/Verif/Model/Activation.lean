import Verif.Model.LinAlg
import Verif.Model.MatrixApi
import Verif.Real

/-!
# `MLPPActivation` (core/activation.cpp)

`real_t` is the real numbers. `abs`, `exp`, `tanh`, `fmax`, ... on `real_t` are the real functions (`abs` is taken to be the
floating-point overload); `Math::pow(z, 3)` and `Math::pow(z, 2)` are real powers; `Math_PI` (platform/sfw.h:219) is π.
Every `Ref` parameter of a vector or matrix function is converted as in `Model/LinAlg.lean`. Where a C++ function reads
`z->size()` several times it is read once here, before the rest (nothing between the reads changes it).
-/

namespace Verif.Activation
open LinAlg
noncomputable section

/-! ## Scalars -/

/-- `linear_normr`, activation.cpp:851-853. -/
def linear_normr (z : ℝ) : ℝ := z

/-- `linear_derivr`, activation.cpp:861-863. -/
def linear_derivr (_z : ℝ) : ℝ := 1

/-- `sigmoid_normr`, activation.cpp:874-876. -/
def sigmoid_normr (z : ℝ) : ℝ := 1 / (1 + Real.exp (-z))

/-- `sigmoid_derivr`, activation.cpp:886-890. -/
def sigmoid_derivr (z : ℝ) : ℝ := sigmoid_normr z * (1 - sigmoid_normr z)

/-- `softmax_normr`, activation.cpp:909-911. -/
def softmax_normr (z : ℝ) : ℝ := z

/-- `softmax_derivr`, activation.cpp:959-961. -/
def softmax_derivr (z : ℝ) : ℝ := z

/-- `adj_softmax_normr`, activation.cpp:1011-1013. -/
def adj_softmax_normr (_z : ℝ) : ℝ := 0

/-- `adj_softmax_derivr`, activation.cpp:1056-1058. -/
def adj_softmax_derivr (_z : ℝ) : ℝ := 0

/-- `softplus_normr`, activation.cpp:1241-1243. -/
def softplus_normr (z : ℝ) : ℝ := Real.log (1 + Real.exp z)

/-- `softplus_derivr`, activation.cpp:1255-1257. -/
def softplus_derivr (z : ℝ) : ℝ := sigmoid_normr z

/-- `softsign_normr`, activation.cpp:1267-1269. -/
def softsign_normr (z : ℝ) : ℝ := z / (1 + |z|)

/-- `softsign_derivr`, activation.cpp:1281-1283. -/
def softsign_derivr (z : ℝ) : ℝ := 1 / ((1 + |z|) * (1 + |z|))

/-- `gaussian_cdf_normr`, activation.cpp:1297-1299. -/
def gaussian_cdf_normr (z : ℝ) : ℝ := 1 / 2 * (1 + erfReal (z / Real.sqrt 2))

/-- `gaussian_cdf_derivr`, activation.cpp:1312-1314. -/
def gaussian_cdf_derivr (z : ℝ) : ℝ := 1 / Real.sqrt (2 * Real.pi) * Real.exp (-z * z / 2)

/-- `cloglog_normr`, activation.cpp:1329-1331. -/
def cloglog_normr (z : ℝ) : ℝ := 1 - Real.exp (-Real.exp z)

/-- `cloglog_derivr`, activation.cpp:1344-1346. -/
def cloglog_derivr (z : ℝ) : ℝ := Real.exp (z - Real.exp z)

/-- `logit_normr`, activation.cpp:1361-1363. -/
def logit_normr (z : ℝ) : ℝ := Real.log (z / (1 - z))

/-- `logit_derivr`, activation.cpp:1375-1377. -/
def logit_derivr (z : ℝ) : ℝ := 1 / z - 1 / (z - 1)

/-- `unit_step_normr`, activation.cpp:1397-1399. -/
def unit_step_normr (z : ℝ) : ℝ := if z < 0 then 0 else 1

/-- `unit_step_derivr`, activation.cpp:1433-1435. -/
def unit_step_derivr (_z : ℝ) : ℝ := 0

/-- `swish_normr`, activation.cpp:1455-1457. -/
def swish_normr (z : ℝ) : ℝ := z * sigmoid_normr z

/-- `swish_derivr`, activation.cpp:1469-1471. -/
def swish_derivr (z : ℝ) : ℝ := swish_normr z + sigmoid_normr z * (1 - swish_normr z)

/-- `mish_normr`, activation.cpp:1485-1487. -/
def mish_normr (z : ℝ) : ℝ := z * Real.tanh (softplus_normr z)

/-- `sech_normr`, activation.cpp:2135-2137. -/
def sech_normr (z : ℝ) : ℝ := 1 / Real.cosh z

/-- `mish_derivr`, activation.cpp:1499-1501. -/
def mish_derivr (z : ℝ) : ℝ := sech_normr (softplus_normr z) * sech_normr (softplus_normr z) * z * sigmoid_normr z + mish_normr z / z

/-- `sinc_normr`, activation.cpp:1529-1531. -/
def sinc_normr (z : ℝ) : ℝ := Real.sin z / z

/-- `sinc_derivr`, activation.cpp:1543-1545. -/
def sinc_derivr (z : ℝ) : ℝ := (z * Real.cos z - Real.sin z) / (z * z)

/-- `relu_normr`, activation.cpp:1559-1561. -/
def relu_normr (z : ℝ) : ℝ := max 0 z

/-- `relu_derivr`, activation.cpp:1595-1601. -/
def relu_derivr (z : ℝ) : ℝ := if z ≤ 0 then 0 else 1

/-- `leaky_relu_normr`, activation.cpp:1637-1639. -/
def leaky_relu_normr (z c : ℝ) : ℝ := max (c * z) z

/-- `leaky_relu_derivr`, activation.cpp:1673-1679. -/
def leaky_relu_derivr (z c : ℝ) : ℝ := if z ≤ 0 then c else 1

/-- `elu_normr`, activation.cpp:1715-1721. -/
def elu_normr (z c : ℝ) : ℝ := if 0 ≤ z then z else c * (Real.exp z - 1)

/-- `elu_derivr`, activation.cpp:1755-1761. -/
def elu_derivr (z c : ℝ) : ℝ := if z ≤ 0 then c * Real.exp z else 1

/-- `selu_normr`, activation.cpp:1797-1799. -/
def selu_normr (z lambda c : ℝ) : ℝ := lambda * elu_normr z c

/-- `selu_derivr`, activation.cpp:1833-1835. -/
def selu_derivr (z _lambda c : ℝ) : ℝ := elu_derivr z c

/-- `gelu_normr`, activation.cpp:1871-1873. -/
def gelu_normr (z : ℝ) : ℝ := 1 / 2 * z * (1 + Real.tanh (Real.sqrt (2 / Real.pi) * (z + 0.044715 * z ^ (3 : ℝ))))

/-- `sign_normr`, activation.cpp:1945-1953. -/
def sign_normr (z : ℝ) : ℝ := if z < 0 then -1 else if z = 0 then 0 else 1

/-- `sign_derivr`, activation.cpp:1987-1989. -/
def sign_derivr (_z : ℝ) : ℝ := 0

/-- `sinh_normr`, activation.cpp:2025-2027. -/
def sinh_normr (z : ℝ) : ℝ := 1 / 2 * (Real.exp z - Real.exp (-z))

/-- `cosh_normr`, activation.cpp:2049-2051. -/
def cosh_normr (z : ℝ) : ℝ := 1 / 2 * (Real.exp z + Real.exp (-z))

/-- `sinh_derivr`, activation.cpp:2037-2039. -/
def sinh_derivr (z : ℝ) : ℝ := cosh_normr z

/-- `cosh_derivr`, activation.cpp:2061-2063. -/
def cosh_derivr (z : ℝ) : ℝ := sinh_normr z

/-- `tanh_normr`, activation.cpp:2073-2075. -/
def tanh_normr (z : ℝ) : ℝ := (Real.exp z - Real.exp (-z)) / (Real.exp z + Real.exp (-z))

/-- `tanh_derivr`, activation.cpp:2087-2089. -/
def tanh_derivr (z : ℝ) : ℝ := 1 - Real.tanh z * Real.tanh z

/-- `gelu_derivr`, activation.cpp:1907-1909. -/
def gelu_derivr (z : ℝ) : ℝ := 0.5 * tanh_normr (0.0356774 * z ^ (3 : ℝ) + 0.797885 * z) + (0.0535161 * z ^ (3 : ℝ) + 0.398942 * z) * sech_normr (0.0356774 * z ^ (3 : ℝ) + 0.797885 * z) ^ (2 : ℝ) + 0.5

/-- `csch_normr`, activation.cpp:2103-2105. -/
def csch_normr (z : ℝ) : ℝ := 1 / Real.sinh z

/-- `coth_normr`, activation.cpp:2171-2173. -/
def coth_normr (z : ℝ) : ℝ := 1 / Real.tanh z

/-- `csch_derivr`, activation.cpp:2118-2120. -/
def csch_derivr (z : ℝ) : ℝ := -csch_normr z * coth_normr z

/-- `sech_derivr`, activation.cpp:2154-2156. -/
def sech_derivr (z : ℝ) : ℝ := -sech_normr z * tanh_normr z

/-- `coth_derivr`, activation.cpp:2185-2187. -/
def coth_derivr (z : ℝ) : ℝ := -csch_normr z * csch_normr z

/-- `arsinh_normr`, activation.cpp:2201-2203. -/
def arsinh_normr (z : ℝ) : ℝ := Real.log (z + Real.sqrt (z * z + 1))

/-- `arsinh_derivr`, activation.cpp:2217-2219. -/
def arsinh_derivr (z : ℝ) : ℝ := 1 / Real.sqrt (z * z + 1)

/-- `arcosh_normr`, activation.cpp:2235-2237. -/
def arcosh_normr (z : ℝ) : ℝ := Real.log (z + Real.sqrt (z * z - 1))

/-- `arcosh_derivr`, activation.cpp:2250-2252. -/
def arcosh_derivr (z : ℝ) : ℝ := 1 / Real.sqrt (z * z - 1)

/-- `artanh_normr`, activation.cpp:2267-2269. -/
def artanh_normr (z : ℝ) : ℝ := 1 / 2 * Real.log ((1 + z) / (1 - z))

/-- `artanh_derivr`, activation.cpp:2282-2284. -/
def artanh_derivr (z : ℝ) : ℝ := 1 / (1 - z * z)

/-- `arcsch_normr`, activation.cpp:2299-2301. -/
def arcsch_normr (z : ℝ) : ℝ := Real.log (Real.sqrt (1 + 1 / (z * z)) + 1 / z)

/-- `arcsch_derivr`, activation.cpp:2324-2326. -/
def arcsch_derivr (z : ℝ) : ℝ := -1 / (z * z * Real.sqrt (1 + 1 / (z * z)))

/-- `arsech_normr`, activation.cpp:2348-2350. -/
def arsech_normr (z : ℝ) : ℝ := Real.log (1 / z + (1 / z + 1) * (1 / z - 1))

/-- `arsech_derivr`, activation.cpp:2382-2384. -/
def arsech_derivr (z : ℝ) : ℝ := -1 / (z * Real.sqrt (1 - z * z))

/-- `arcoth_normr`, activation.cpp:2409-2411. -/
def arcoth_normr (z : ℝ) : ℝ := 1 / 2 * Real.log ((1 + z) / (z - 1))

/-- `arcoth_derivr`, activation.cpp:2428-2430. -/
def arcoth_derivr (z : ℝ) : ℝ := 1 / (1 - z * z)

/-! ## Vectors and matrices -/

/-- `z->size()` of a vector handle. -/
def vsize (z : Ref) : M ℝ Nat := do
  let z ← deref z.asV
  let s ← getSize z
  pure s.x

/-- `z->size()` of a matrix handle. -/
def msize (z : Ref) : M ℝ Size := do
  let z ← deref z.asM
  getSize z

/-- `instance(); resize(z->size())` and a loop over the elements, shape of activation.cpp:1388-1404 (`unit_step_normv`). -/
def loopV (f : ℝ → ℝ) (z : Ref) : M ℝ Ref := do
  let z ← deref z.asV
  unN f z

/-- `instance(); resize(z->size())` and a loop over `data_size()`, shape of activation.cpp:1405-1421 (`unit_step_normm`). -/
def loopM (f : ℝ → ℝ) (z : Ref) : M ℝ Ref := do
  let z ← deref z.asM
  unN f z

/-- A `Ref<MLPPVector>` returned by a function with return type `Ref<MLPPMatrix>`, platform/sfw.h:19319-19331. -/
def returnM (r : Ref) : M ℝ Ref := pure r.asM

/-- `linear_normv`, activation.cpp:854-856. -/
def linear_normv (z : Ref) : M ℝ Ref := do
  let z ← deref z.asV
  duplicateFast z

/-- `linear_normm`, activation.cpp:857-859. -/
def linear_normm (z : Ref) : M ℝ Ref := do
  let z ← deref z.asM
  duplicateFast z

/-- `linear_derivv`, activation.cpp:864-867. -/
def linear_derivv (z : Ref) : M ℝ Ref := do
  let n ← vsize z
  onevecnv n

/-- `linear_derivm`, activation.cpp:868-871. -/
def linear_derivm (z : Ref) : M ℝ Ref := do
  let s ← msize z
  onematnm s.y s.x

/-- `sigmoid_normv`, activation.cpp:877-880. -/
def sigmoid_normv (z : Ref) : M ℝ Ref := do
  let n ← vsize z
  app2 division_element_wisenv (onevecnv n) (app2 additionnv (onevecnv n) (app1 expnv (app1 (scalar_multiplynv (-1)) (pure z))))

/-- `sigmoid_normm`, activation.cpp:881-884. -/
def sigmoid_normm (z : Ref) : M ℝ Ref := do
  let s ← msize z
  app2 division_element_wisenvnm (onematnm s.y s.x) (app2 additionnm (onematnm s.y s.x) (app1 expnm (app1 (scalar_multiplynm (-1)) (pure z))))

/-- `sigmoid_derivv`, activation.cpp:892-898. -/
def sigmoid_derivv (z : Ref) : M ℝ Ref := do
  let sig_norm ← sigmoid_normv z
  app2 subtractionnv (pure sig_norm) (app2 hadamard_productnv (pure sig_norm) (pure sig_norm))

/-- `sigmoid_derivm`, activation.cpp:899-905. -/
def sigmoid_derivm (z : Ref) : M ℝ Ref := do
  let sig_norm ← sigmoid_normm z
  app2 subtractionnm (pure sig_norm) (app2 hadamard_productnm (pure sig_norm) (pure sig_norm))

/-- `softplus_normv`, activation.cpp:1244-1248. -/
def softplus_normv (z : Ref) : M ℝ Ref := do
  let n ← vsize z
  app1 lognv (app2 additionnv (onevecnv n) (app1 expnv (pure z)))

/-- `softplus_normm`, activation.cpp:1249-1253. -/
def softplus_normm (z : Ref) : M ℝ Ref := do
  let s ← msize z
  app1 returnM (app1 lognv (app2 additionnv (onematnm s.y s.x) (app1 expnv (pure z))))

/-- `softplus_derivv`, activation.cpp:1258-1260. -/
def softplus_derivv (z : Ref) : M ℝ Ref :=
  app1 sigmoid_normv (pure z)

/-- `softplus_derivm`, activation.cpp:1261-1263. -/
def softplus_derivm (z : Ref) : M ℝ Ref :=
  app1 sigmoid_normm (pure z)

/-- `softsign_normv`, activation.cpp:1270-1274. -/
def softsign_normv (z : Ref) : M ℝ Ref := do
  let n ← vsize z
  app2 division_element_wisenv (pure z) (app2 additionnv (onevecnv n) (app1 absv (pure z)))

/-- `softsign_normm`, activation.cpp:1275-1279. -/
def softsign_normm (z : Ref) : M ℝ Ref := do
  let s ← msize z
  app2 division_element_wisenvnm (pure z) (app2 additionnv (onematnm s.y s.x) (app1 absnm (pure z)))

/-- `softsign_derivv`, activation.cpp:1284-1288. -/
def softsign_derivv (z : Ref) : M ℝ Ref := do
  let n ← vsize z
  app2 division_element_wisenv (onevecnv n) (app1 (exponentiatenv 2) (app2 additionnv (onevecnv n) (app1 absv (pure z))))

/-- `softsign_derivm`, activation.cpp:1289-1293. -/
def softsign_derivm (z : Ref) : M ℝ Ref := do
  let s ← msize z
  app2 division_element_wisenvnm (onematnm s.y s.x) (app1 (exponentiatenv 2) (app2 additionnm (onematnm s.y s.x) (app1 absnm (pure z))))

/-- `gaussian_cdf_normv`, activation.cpp:1300-1304. -/
def gaussian_cdf_normv (z : Ref) : M ℝ Ref := do
  let n ← vsize z
  app1 (scalar_multiplynv (1 / 2)) (app2 additionnv (onevecnv n) (app1 erfnv (app1 (scalar_multiplynv (1 / Real.sqrt 2)) (pure z))))

/-- `gaussian_cdf_normm`, activation.cpp:1306-1310. -/
def gaussian_cdf_normm (z : Ref) : M ℝ Ref := do
  let s ← msize z
  app1 (scalar_multiplynm (1 / 2)) (app2 additionnm (onematnm s.y s.x) (app1 erfnm (app1 (scalar_multiplynm (1 / Real.sqrt 2)) (pure z))))

/-- `gaussian_cdf_derivv`, activation.cpp:1315-1319. -/
def gaussian_cdf_derivv (z : Ref) : M ℝ Ref :=
  app1 (scalar_multiplynv (1 / Real.sqrt (2 * Real.pi))) (app1 expnv (app1 (scalar_multiplynv (-1 / 2)) (app2 hadamard_productnv (pure z) (pure z))))

/-- `gaussian_cdf_derivm`, activation.cpp:1321-1325. -/
def gaussian_cdf_derivm (z : Ref) : M ℝ Ref :=
  app1 (scalar_multiplynm (1 / Real.sqrt (2 * Real.pi))) (app1 expnm (app1 (scalar_multiplynm (-1 / 2)) (app2 hadamard_productnm (pure z) (pure z))))

/-- `cloglog_normv`, activation.cpp:1332-1336. -/
def cloglog_normv (z : Ref) : M ℝ Ref :=
  app1 (scalar_multiplynv (-1)) (app1 (scalar_addnv (-1)) (app1 expnv (app1 (scalar_multiplynv (-1)) (app1 expnv (pure z)))))

/-- `cloglog_normm`, activation.cpp:1338-1342. -/
def cloglog_normm (z : Ref) : M ℝ Ref :=
  app1 (scalar_multiplynm (-1)) (app1 (scalar_addnm (-1)) (app1 expnm (app1 (scalar_multiplynm (-1)) (app1 expnm (pure z)))))

/-- `cloglog_derivv`, activation.cpp:1347-1351. -/
def cloglog_derivv (z : Ref) : M ℝ Ref :=
  app1 expnv (app1 (scalar_multiplynv (-1)) (app1 expnv (pure z)))

/-- `cloglog_derivm`, activation.cpp:1353-1357. -/
def cloglog_derivm (z : Ref) : M ℝ Ref :=
  app1 expnm (app1 (scalar_multiplynm (-1)) (app1 expnm (pure z)))

/-- `logit_normv`, activation.cpp:1364-1368. -/
def logit_normv (z : Ref) : M ℝ Ref := do
  let n ← vsize z
  app1 lognv (app2 division_element_wisenv (pure z) (app2 subtractionnv (onevecnv n) (pure z)))

/-- `logit_normm`, activation.cpp:1369-1373. -/
def logit_normm (z : Ref) : M ℝ Ref := do
  let s ← msize z
  app1 lognm (app2 division_element_wisenvnm (pure z) (app2 subtractionnm (onematnm s.y s.x) (pure z)))

/-- `logit_derivv`, activation.cpp:1378-1384. -/
def logit_derivv (z : Ref) : M ℝ Ref := do
  let n ← vsize z
  app2 subtractionnv (app2 division_element_wisenv (onevecnv n) (pure z)) (app2 division_element_wisenv (onevecnv n) (app2 subtractionnv (pure z) (onevecnv n)))

/-- `logit_derivm`, activation.cpp:1385-1393. -/
def logit_derivm (z : Ref) : M ℝ Ref := do
  let s ← msize z
  app2 subtractionnm (app2 division_element_wisenvnm (onematnm s.y s.x) (pure z)) (app2 division_element_wisenvnm (onematnm s.y s.x) (app2 subtractionnm (pure z) (onematnm s.y s.x)))

/-- `unit_step_normv`, activation.cpp:1400-1415. -/
def unit_step_normv (z : Ref) : M ℝ Ref := loopV unit_step_normr z

/-- `unit_step_normm`, activation.cpp:1416-1431. -/
def unit_step_normm (z : Ref) : M ℝ Ref := loopM unit_step_normr z

/-- `unit_step_derivv`, activation.cpp:1436-1443. -/
def unit_step_derivv (z : Ref) : M ℝ Ref := do
  let n ← vsize z
  fullV n 0

/-- `unit_step_derivm`, activation.cpp:1444-1451. -/
def unit_step_derivm (z : Ref) : M ℝ Ref := do
  let s ← msize z
  fullM s 0

/-- `swish_normv`, activation.cpp:1458-1462. -/
def swish_normv (z : Ref) : M ℝ Ref :=
  app2 hadamard_productnv (pure z) (app1 sigmoid_normv (pure z))

/-- `swish_normm`, activation.cpp:1463-1467. -/
def swish_normm (z : Ref) : M ℝ Ref :=
  app1 returnM (app2 hadamard_productnv (pure z) (app1 sigmoid_normm (pure z)))

/-- `swish_derivv`, activation.cpp:1472-1476. -/
def swish_derivv (z : Ref) : M ℝ Ref :=
  app2 additionnv (app1 swish_normv (pure z)) (app2 subtractionnv (app1 sigmoid_normv (pure z)) (app2 hadamard_productnv (app1 sigmoid_normv (pure z)) (app1 swish_normv (pure z))))

/-- `swish_derivm`, activation.cpp:1477-1481. -/
def swish_derivm (z : Ref) : M ℝ Ref :=
  app1 returnM (app2 additionnv (app1 swish_normm (pure z)) (app2 subtractionnv (app1 sigmoid_normm (pure z)) (app2 hadamard_productnm (app1 sigmoid_normm (pure z)) (app1 swish_normm (pure z)))))

/-- `tanh_normv`, activation.cpp:2076-2080. -/
def tanh_normv (z : Ref) : M ℝ Ref :=
  app2 division_element_wisenv (app2 subtractionnv (app1 expnv (pure z)) (app1 expnv (app1 (scalar_multiplynv (-1)) (pure z)))) (app2 additionnv (app1 expnv (pure z)) (app1 expnv (app1 (scalar_multiplynv (-1)) (pure z))))

/-- `mish_normv`, activation.cpp:1488-1492. -/
def mish_normv (z : Ref) : M ℝ Ref :=
  app2 hadamard_productnv (pure z) (app1 tanh_normv (app1 softplus_normv (pure z)))

/-- `tanh_normm`, activation.cpp:2081-2085. -/
def tanh_normm (z : Ref) : M ℝ Ref :=
  app2 division_element_wisenvnm (app2 subtractionnm (app1 expnm (pure z)) (app1 expnm (app1 (scalar_multiplynm (-1)) (pure z)))) (app2 additionnm (app1 expnm (pure z)) (app1 expnm (app1 (scalar_multiplynm (-1)) (pure z))))

/-- `mish_normm`, activation.cpp:1493-1497. -/
def mish_normm (z : Ref) : M ℝ Ref :=
  app2 hadamard_productnm (pure z) (app1 tanh_normm (app1 softplus_normm (pure z)))

/-- `cosh_normv`, activation.cpp:2052-2055. -/
def cosh_normv (z : Ref) : M ℝ Ref :=
  app1 (scalar_multiplynv (1 / 2)) (app2 additionnv (app1 expnv (pure z)) (app1 expnv (app1 (scalar_multiplynv (-1)) (pure z))))

/-- `sech_normv`, activation.cpp:2139-2145. -/
def sech_normv (z : Ref) : M ℝ Ref := do
  let n ← vsize z
  app2 division_element_wisenv (onevecnv n) (app1 cosh_normv (pure z))

/-- `mish_derivv`, activation.cpp:1502-1513. -/
def mish_derivv (z : Ref) : M ℝ Ref :=
  app2 additionnv (app2 hadamard_productnv (app2 hadamard_productnv (app2 hadamard_productnv (app1 sech_normv (app1 softplus_normv (pure z))) (app1 sech_normv (app1 softplus_normv (pure z)))) (pure z)) (app1 sigmoid_normv (pure z))) (app2 division_element_wisenv (app1 mish_normv (pure z)) (pure z))

/-- `cosh_normm`, activation.cpp:2056-2059. -/
def cosh_normm (z : Ref) : M ℝ Ref :=
  app1 (scalar_multiplynm (1 / 2)) (app2 additionnm (app1 expnm (pure z)) (app1 expnm (app1 (scalar_multiplynm (-1)) (pure z))))

/-- `sech_normm`, activation.cpp:2146-2152. -/
def sech_normm (z : Ref) : M ℝ Ref := do
  let s ← msize z
  app2 division_element_wisenvnm (onematnm s.y s.x) (app1 cosh_normm (pure z))

/-- `mish_derivm`, activation.cpp:1514-1525. -/
def mish_derivm (z : Ref) : M ℝ Ref :=
  app1 returnM (app2 additionnv (app2 hadamard_productnm (app2 hadamard_productnm (app2 hadamard_productnm (app1 sech_normm (app1 softplus_normm (pure z))) (app1 sech_normm (app1 softplus_normm (pure z)))) (pure z)) (app1 sigmoid_normm (pure z))) (app2 division_element_wisenvnm (app1 mish_normm (pure z)) (pure z)))

/-- `sinc_normv`, activation.cpp:1532-1536. -/
def sinc_normv (z : Ref) : M ℝ Ref :=
  app2 division_element_wisenv (app1 sinnv (pure z)) (pure z)

/-- `sinc_normm`, activation.cpp:1537-1541. -/
def sinc_normm (z : Ref) : M ℝ Ref :=
  app2 division_element_wisenvnm (app1 sinnm (pure z)) (pure z)

/-- `sinc_derivv`, activation.cpp:1546-1550. -/
def sinc_derivv (z : Ref) : M ℝ Ref :=
  app2 division_element_wisenv (app2 subtractionnv (app2 hadamard_productnv (pure z) (app1 cosnv (pure z))) (app1 sinnv (pure z))) (app2 hadamard_productnv (pure z) (pure z))

/-- `sinc_derivm`, activation.cpp:1551-1555. -/
def sinc_derivm (z : Ref) : M ℝ Ref :=
  app2 division_element_wisenvnm (app2 subtractionnm (app2 hadamard_productnm (pure z) (app1 cosnm (pure z))) (app1 sinnm (pure z))) (app2 hadamard_productnm (pure z) (pure z))

/-- `relu_normv`, activation.cpp:1562-1577. -/
def relu_normv (z : Ref) : M ℝ Ref := loopV relu_normr z

/-- `relu_normm`, activation.cpp:1578-1593. -/
def relu_normm (z : Ref) : M ℝ Ref := loopM relu_normr z

/-- `relu_derivv`, activation.cpp:1602-1617. -/
def relu_derivv (z : Ref) : M ℝ Ref := loopV relu_derivr z

/-- `relu_derivm`, activation.cpp:1618-1633. -/
def relu_derivm (z : Ref) : M ℝ Ref := loopM relu_derivr z

/-- `leaky_relu_normv`, activation.cpp:1640-1655. -/
def leaky_relu_normv (z : Ref) (c : ℝ) : M ℝ Ref := loopV (fun x => leaky_relu_normr x c) z

/-- `leaky_relu_normm`, activation.cpp:1656-1671. -/
def leaky_relu_normm (z : Ref) (c : ℝ) : M ℝ Ref := loopM (fun x => leaky_relu_normr x c) z

/-- `leaky_relu_derivv`, activation.cpp:1680-1695. -/
def leaky_relu_derivv (z : Ref) (c : ℝ) : M ℝ Ref := loopV (fun x => leaky_relu_derivr x c) z

/-- `leaky_relu_derivm`, activation.cpp:1696-1711. -/
def leaky_relu_derivm (z : Ref) (c : ℝ) : M ℝ Ref := loopM (fun x => leaky_relu_derivr x c) z

/-- `elu_normv`, activation.cpp:1722-1737. -/
def elu_normv (z : Ref) (c : ℝ) : M ℝ Ref := loopV (fun x => elu_normr x c) z

/-- `elu_normm`, activation.cpp:1738-1753. -/
def elu_normm (z : Ref) (c : ℝ) : M ℝ Ref := loopM (fun x => elu_normr x c) z

/-- `elu_derivv`, activation.cpp:1762-1777. -/
def elu_derivv (z : Ref) (c : ℝ) : M ℝ Ref := loopV (fun x => elu_derivr x c) z

/-- `elu_derivm`, activation.cpp:1778-1793. -/
def elu_derivm (z : Ref) (c : ℝ) : M ℝ Ref := loopM (fun x => elu_derivr x c) z

/-- `selu_normv`, activation.cpp:1800-1815. -/
def selu_normv (z : Ref) (lambda : ℝ) (c : ℝ) : M ℝ Ref := loopV (fun x => selu_normr x lambda c) z

/-- `selu_normm`, activation.cpp:1816-1831. -/
def selu_normm (z : Ref) (lambda : ℝ) (c : ℝ) : M ℝ Ref := loopM (fun x => selu_normr x lambda c) z

/-- `selu_derivv`, activation.cpp:1836-1851. -/
def selu_derivv (z : Ref) (lambda : ℝ) (c : ℝ) : M ℝ Ref := loopV (fun x => selu_derivr x lambda c) z

/-- `selu_derivm`, activation.cpp:1852-1867. -/
def selu_derivm (z : Ref) (lambda : ℝ) (c : ℝ) : M ℝ Ref := loopM (fun x => selu_derivr x lambda c) z

/-- `gelu_normv`, activation.cpp:1874-1889. -/
def gelu_normv (z : Ref) : M ℝ Ref := loopV gelu_normr z

/-- `gelu_normm`, activation.cpp:1890-1905. -/
def gelu_normm (z : Ref) : M ℝ Ref := loopM gelu_normr z

/-- `gelu_derivv`, activation.cpp:1910-1925. -/
def gelu_derivv (z : Ref) : M ℝ Ref := loopV gelu_derivr z

/-- `gelu_derivm`, activation.cpp:1926-1941. -/
def gelu_derivm (z : Ref) : M ℝ Ref := loopM gelu_derivr z

/-- `sign_normv`, activation.cpp:1954-1969. -/
def sign_normv (z : Ref) : M ℝ Ref := loopV sign_normr z

/-- `sign_normm`, activation.cpp:1970-1985. -/
def sign_normm (z : Ref) : M ℝ Ref := loopM sign_normr z

/-- `sign_derivv`, activation.cpp:1990-2005. -/
def sign_derivv (z : Ref) : M ℝ Ref := loopV sign_derivr z

/-- `sign_derivm`, activation.cpp:2006-2021. -/
def sign_derivm (z : Ref) : M ℝ Ref := loopM sign_derivr z

/-- `sinh_normv`, activation.cpp:2028-2031. -/
def sinh_normv (z : Ref) : M ℝ Ref :=
  app1 (scalar_multiplynv (1 / 2)) (app2 subtractionnv (app1 expnv (pure z)) (app1 expnv (app1 (scalar_multiplynv (-1)) (pure z))))

/-- `sinh_normm`, activation.cpp:2032-2035. -/
def sinh_normm (z : Ref) : M ℝ Ref :=
  app1 (scalar_multiplynm (1 / 2)) (app2 subtractionnm (app1 expnm (pure z)) (app1 expnm (app1 (scalar_multiplynm (-1)) (pure z))))

/-- `sinh_derivv`, activation.cpp:2040-2042. -/
def sinh_derivv (z : Ref) : M ℝ Ref :=
  app1 cosh_normv (pure z)

/-- `sinh_derivm`, activation.cpp:2043-2045. -/
def sinh_derivm (z : Ref) : M ℝ Ref :=
  app1 cosh_normm (pure z)

/-- `cosh_derivv`, activation.cpp:2064-2066. -/
def cosh_derivv (z : Ref) : M ℝ Ref :=
  app1 sinh_normv (pure z)

/-- `cosh_derivm`, activation.cpp:2067-2069. -/
def cosh_derivm (z : Ref) : M ℝ Ref :=
  app1 sinh_normm (pure z)

/-- `tanh_derivv`, activation.cpp:2090-2094. -/
def tanh_derivv (z : Ref) : M ℝ Ref :=
  app1 (scalar_multiplynv (-1)) (app1 (scalar_addnv (-1)) (app2 hadamard_productnv (app1 tanh_normv (pure z)) (app1 tanh_normv (pure z))))

/-- `tanh_derivm`, activation.cpp:2095-2099. -/
def tanh_derivm (z : Ref) : M ℝ Ref :=
  app1 (scalar_multiplynm (-1)) (app1 (scalar_addnm (-1)) (app2 hadamard_productnm (app1 tanh_normm (pure z)) (app1 tanh_normm (pure z))))

/-- `csch_normv`, activation.cpp:2106-2110. -/
def csch_normv (z : Ref) : M ℝ Ref := do
  let n ← vsize z
  app2 division_element_wisenv (onevecnv n) (app1 sinh_normv (pure z))

/-- `csch_normm`, activation.cpp:2112-2116. -/
def csch_normm (z : Ref) : M ℝ Ref := do
  let s ← msize z
  app2 division_element_wisenvnm (onematnm s.y s.x) (app1 sinh_normm (pure z))

/-- `coth_normv`, activation.cpp:2174-2178. -/
def coth_normv (z : Ref) : M ℝ Ref := do
  let n ← vsize z
  app2 division_element_wisenv (onevecnv n) (app1 tanh_normv (pure z))

/-- `csch_derivv`, activation.cpp:2121-2125. -/
def csch_derivv (z : Ref) : M ℝ Ref :=
  app2 hadamard_productnv (app1 (scalar_multiplynv (-1)) (app1 csch_normv (pure z))) (app1 coth_normv (pure z))

/-- `coth_normm`, activation.cpp:2179-2183. -/
def coth_normm (z : Ref) : M ℝ Ref := do
  let s ← msize z
  app2 division_element_wisenvnm (onematnm s.y s.x) (app1 tanh_normm (pure z))

/-- `csch_derivm`, activation.cpp:2127-2131. -/
def csch_derivm (z : Ref) : M ℝ Ref :=
  app2 hadamard_productnm (app1 (scalar_multiplynm (-1)) (app1 csch_normm (pure z))) (app1 coth_normm (pure z))

/-- `sech_derivv`, activation.cpp:2158-2162. -/
def sech_derivv (z : Ref) : M ℝ Ref :=
  app2 hadamard_productnv (app1 (scalar_multiplynv (-1)) (app1 sech_normv (pure z))) (app1 tanh_normv (pure z))

/-- `sech_derivm`, activation.cpp:2163-2167. -/
def sech_derivm (z : Ref) : M ℝ Ref :=
  app2 hadamard_productnm (app1 (scalar_multiplynm (-1)) (app1 sech_normm (pure z))) (app1 tanh_normm (pure z))

/-- `coth_derivv`, activation.cpp:2188-2192. -/
def coth_derivv (z : Ref) : M ℝ Ref :=
  app2 hadamard_productnv (app1 (scalar_multiplynv (-1)) (app1 csch_normv (pure z))) (app1 csch_normv (pure z))

/-- `coth_derivm`, activation.cpp:2193-2197. -/
def coth_derivm (z : Ref) : M ℝ Ref :=
  app2 hadamard_productnm (app1 (scalar_multiplynm (-1)) (app1 csch_normm (pure z))) (app1 csch_normm (pure z))

/-- `arsinh_normv`, activation.cpp:2205-2209. -/
def arsinh_normv (z : Ref) : M ℝ Ref := do
  let n ← vsize z
  app1 lognv (app2 additionnv (pure z) (app1 sqrtnv (app2 additionnv (app2 hadamard_productnv (pure z) (pure z)) (onevecnv n))))

/-- `arsinh_normm`, activation.cpp:2211-2215. -/
def arsinh_normm (z : Ref) : M ℝ Ref := do
  let s ← msize z
  app1 lognm (app2 additionnm (pure z) (app1 sqrtnm (app2 additionnm (app2 hadamard_productnm (pure z) (pure z)) (onematnm s.y s.x))))

/-- `arsinh_derivv`, activation.cpp:2221-2225. -/
def arsinh_derivv (z : Ref) : M ℝ Ref := do
  let n ← vsize z
  app2 division_element_wisenv (onevecnv n) (app1 sqrtnv (app2 additionnv (app2 hadamard_productnv (pure z) (pure z)) (onevecnv n)))

/-- `arsinh_derivm`, activation.cpp:2227-2231. -/
def arsinh_derivm (z : Ref) : M ℝ Ref := do
  let s ← msize z
  app2 division_element_wisenvnm (onematnm s.y s.x) (app1 sqrtnm (app2 additionnm (app2 hadamard_productnm (pure z) (pure z)) (onematnm s.y s.x)))

/-- `arcosh_normv`, activation.cpp:2238-2242. -/
def arcosh_normv (z : Ref) : M ℝ Ref := do
  let n ← vsize z
  app1 lognv (app2 additionnv (pure z) (app1 sqrtnv (app2 subtractionnv (app2 hadamard_productnv (pure z) (pure z)) (onevecnv n))))

/-- `arcosh_normm`, activation.cpp:2244-2248. -/
def arcosh_normm (z : Ref) : M ℝ Ref := do
  let s ← msize z
  app1 lognm (app2 additionnm (pure z) (app1 sqrtnm (app2 subtractionnm (app2 hadamard_productnm (pure z) (pure z)) (onematnm s.y s.x))))

/-- `arcosh_derivv`, activation.cpp:2253-2257. -/
def arcosh_derivv (z : Ref) : M ℝ Ref := do
  let n ← vsize z
  app2 division_element_wisenv (onevecnv n) (app1 sqrtnv (app2 subtractionnv (app2 hadamard_productnv (pure z) (pure z)) (onevecnv n)))

/-- `arcosh_derivm`, activation.cpp:2259-2263. -/
def arcosh_derivm (z : Ref) : M ℝ Ref := do
  let s ← msize z
  app2 division_element_wisenvnm (onematnm s.y s.x) (app1 sqrtnm (app2 subtractionnm (app2 hadamard_productnm (pure z) (pure z)) (onematnm s.y s.x)))

/-- `artanh_normv`, activation.cpp:2270-2274. -/
def artanh_normv (z : Ref) : M ℝ Ref := do
  let n ← vsize z
  app1 (scalar_multiplynv (1 / 2)) (app1 lognv (app2 division_element_wisenv (app2 additionnv (onevecnv n) (pure z)) (app2 subtractionnv (onevecnv n) (pure z))))

/-- `artanh_normm`, activation.cpp:2276-2280. -/
def artanh_normm (z : Ref) : M ℝ Ref := do
  let s ← msize z
  app1 (scalar_multiplynm (1 / 2)) (app1 lognm (app2 division_element_wisenvnm (app2 additionnm (onematnm s.y s.x) (pure z)) (app2 subtractionnm (onematnm s.y s.x) (pure z))))

/-- `artanh_derivv`, activation.cpp:2285-2289. -/
def artanh_derivv (z : Ref) : M ℝ Ref := do
  let n ← vsize z
  app2 division_element_wisenv (onevecnv n) (app2 subtractionnv (onevecnv n) (app2 hadamard_productnv (pure z) (pure z)))

/-- `artanh_derivm`, activation.cpp:2291-2295. -/
def artanh_derivm (z : Ref) : M ℝ Ref := do
  let s ← msize z
  app2 division_element_wisenvnm (onematnm s.y s.x) (app2 subtractionnv (onematnm s.y s.x) (app2 hadamard_productnm (pure z) (pure z)))

/-- `arcsch_normv`, activation.cpp:2302-2312. -/
def arcsch_normv (z : Ref) : M ℝ Ref := do
  let n ← vsize z
  app1 lognv (app2 additionnv (app1 sqrtnv (app2 additionnv (onevecnv n) (app2 division_element_wisenv (onevecnv n) (app2 hadamard_productnv (pure z) (pure z))))) (app2 division_element_wisenv (onevecnv n) (pure z)))

/-- `arcsch_normm`, activation.cpp:2313-2322. -/
def arcsch_normm (z : Ref) : M ℝ Ref := do
  let s ← msize z
  app1 lognm (app2 additionnm (app1 sqrtnm (app2 additionnm (onematnm s.y s.x) (app2 division_element_wisenvnm (onematnm s.y s.x) (app2 hadamard_productnm (pure z) (pure z))))) (app2 division_element_wisenvnm (onematnm s.y s.x) (pure z)))

/-- `arcsch_derivv`, activation.cpp:2327-2335. -/
def arcsch_derivv (z : Ref) : M ℝ Ref := do
  let n ← vsize z
  app2 division_element_wisenv (fullnv n (-1)) (app2 hadamard_productnm (app2 hadamard_productnv (pure z) (pure z)) (app1 sqrtnv (app2 additionnv (onevecnv n) (app2 division_element_wisenv (onevecnv n) (app2 hadamard_productnv (pure z) (pure z))))))

/-- `arcsch_derivm`, activation.cpp:2336-2344. -/
def arcsch_derivm (z : Ref) : M ℝ Ref := do
  let s ← msize z
  app2 division_element_wisenvnm (fullnm s.y s.x (-1)) (app2 hadamard_productnm (app2 hadamard_productnm (pure z) (pure z)) (app1 sqrtnm (app2 additionnm (onematnm s.y s.x) (app2 division_element_wisenvnm (onematnm s.y s.x) (app2 hadamard_productnm (pure z) (pure z))))))

/-- `arsech_normv`, activation.cpp:2352-2362. -/
def arsech_normv (z : Ref) : M ℝ Ref := do
  let n ← vsize z
  app1 lognv (app2 additionnv (app2 division_element_wisenv (onevecnv n) (pure z)) (app2 hadamard_productnv (app2 additionnv (app2 division_element_wisenv (onevecnv n) (pure z)) (onevecnv n)) (app2 subtractionnv (app2 division_element_wisenv (onevecnv n) (pure z)) (onevecnv n))))

/-- `arsech_normm`, activation.cpp:2364-2380. -/
def arsech_normm (z : Ref) : M ℝ Ref := do
  let s ← msize z
  app1 lognm (app2 additionnm (app2 division_element_wisenvnm (onematnm s.y s.x) (pure z)) (app2 hadamard_productnm (app2 additionnm (app2 division_element_wisenvnm (onematnm s.y s.x) (pure z)) (onematnm s.y s.x)) (app2 subtractionnm (app2 division_element_wisenvnm (onematnm s.y s.x) (pure z)) (onematnm s.y s.x))))

/-- `arsech_derivv`, activation.cpp:2386-2395. -/
def arsech_derivv (z : Ref) : M ℝ Ref := do
  let n ← vsize z
  app2 division_element_wisenv (fullnv n (-1)) (app2 hadamard_productnv (pure z) (app1 sqrtnv (app2 subtractionnv (onevecnv n) (app2 hadamard_productnv (pure z) (pure z)))))

/-- `arsech_derivm`, activation.cpp:2397-2405. -/
def arsech_derivm (z : Ref) : M ℝ Ref := do
  let s ← msize z
  app2 division_element_wisenvnm (fullnm s.y s.x (-1)) (app2 hadamard_productnm (pure z) (app1 sqrtnm (app2 subtractionnm (onematnm s.y s.x) (app2 hadamard_productnm (pure z) (pure z)))))

/-- `arcoth_normv`, activation.cpp:2412-2418. -/
def arcoth_normv (z : Ref) : M ℝ Ref := do
  let n ← vsize z
  app1 (scalar_multiplynv (1 / 2)) (app1 lognv (app2 division_element_wisenv (app2 additionnv (onevecnv n) (pure z)) (app2 subtractionnv (pure z) (onevecnv n))))

/-- `arcoth_normm`, activation.cpp:2420-2426. -/
def arcoth_normm (z : Ref) : M ℝ Ref := do
  let s ← msize z
  app1 (scalar_multiplynm (1 / 2)) (app1 lognm (app2 division_element_wisenvnm (app2 additionnm (onematnm s.y s.x) (pure z)) (app2 subtractionnm (pure z) (onematnm s.y s.x))))

/-- `arcoth_derivv`, activation.cpp:2431-2435. -/
def arcoth_derivv (z : Ref) : M ℝ Ref := do
  let n ← vsize z
  app2 division_element_wisenv (onevecnv n) (app2 subtractionnv (onevecnv n) (app2 hadamard_productnv (pure z) (pure z)))

/-- `arcoth_derivm`, activation.cpp:2437-2441. -/
def arcoth_derivm (z : Ref) : M ℝ Ref := do
  let s ← msize z
  app2 division_element_wisenvnm (onematnm s.y s.x) (app2 subtractionnm (onematnm s.y s.x) (app2 hadamard_productnm (pure z) (pure z)))

end
end Verif.Activation
