import Verif.Model.SpecFun
import Verif.Model.SphericalHarmonics

/-! # Model of `libgrpp/specfunc_dawson.c`

`long double` is idealised as `ℝ`; `LDBL_EPSILON`, which depends on the platform, is the parameter `eps`. -/

namespace Libgrpp

/-- `LDBL_EPSILON` is `2^-52` (`long double` = `double`), `2^-63` (x87) or `2^-112` (IEEE quadruple). -/
def LdblEps (eps : ℝ) : Prop := 1 / 2 ^ 112 ≤ eps ∧ eps ≤ 1 / 2 ^ 52

/-- The coefficients `c[]` of the six Chebyshev expansions, times `10^45`: specfunc_dawson.c:187-199, 235-247, 283-295, 331-343, 381-393,
429-441. -/
def dawRows : List (List ℤ) :=
  [
    [456396071123948314208100000000000000000000000, -92685661006707676198610000000000000000000000, -7334392170021420220239000000000000000000000,
     3379523740404396755124000000000000000000000, -308589844867859509081300000000000000000000, -15198467246193195123110000000000000000000,
     4903955822454009397182000000000000000000, -210691053862922472183800000000000000000, -29306762206039961920890000000000000000,
     3326790071774057337673000000000000000, 33355934576957691913260000000000000, -22791040367210122219820000000000000,
     787756163315634880609100000000000, 91731581671079744722280000000000, -7341175636102869400671000000000,
     -176337044412584902951100000000, 37929462985064350142900000000, -425196916243593625017100000,
     -135829582081844868682100000, 5268740962820224108235000, 341493967430474809448400],
    [284371119454859280855000000000000000000000000, -67917741391668089405300000000000000000000000, 6955211059379384327814000000000000000000000,
     -272636658214683948678400000000000000000000, -65166824850879251638740000000000000000000, 14043879115049351552280000000000000000000,
     -1103288540946056915318000000000000000000, -14221545972934048460810000000000000000, 11027146643128395853300000000000000000,
     -865921155738354425505300000000000000, -8048589443963965285748000000000000, 6092061709996351761426000000000000,
     -358097761121351923432400000000000, -10851735585901379657370000000000, 2411707924175380740802000000000,
     -77607512946102765986310000000, -6701490147030045891595000000, 635014584125456357210000000,
     -2034625734538917052251000, -2260543651146274653910000, 97824199613874256331510],
    [190135127420457812682700000000000000000000000, -30005755221936324601180000000000000000000000, 2672138524890489432579000000000000000000000,
     -249823754867523515051900000000000000000000, 20134831634597015932710000000000000000000, -845466360310854818296200000000000000000,
     -80365896363340164323680000000000000000, 20554985096713579335370000000000000000, -2052151324060186596995000000000000000,
     85843159670754838224640000000000000, 5062689357469596748991000000000000, -1038671167196342609090000000000000,
     63679628518602312362380000000000, 308468842264741976722900000000, -341794614254657518849000000000,
     23115677301001193021600000000, -61701325469837262447160000, -91331769209449504608470000,
     5712092431423316128728000, 12696410783697372207900, -20726597115277113126990],
    [140288497448499567874900000000000000000000000, -20539753719959370339590000000000000000000000, 1595388628922920119352000000000000000000000,
     -133689458491098599820300000000000000000000, 12249037741781562863000000000000000000000, -1206856028658387948773000000000000000000,
     118799723326952894550300000000000000000, -10129360614968244482590000000000000000, 524440824006237060566400000000000000,
     29014447590222548465620000000000000, -11689875024939039269060000000000000, 1640096995420504465839000000000000,
     -133919066855420961831800000000000, 3643815972666851044790000000000, 692248658112616916023200000000,
     -115876125146710674975200000000, 8164320395639210093180000000, -53979184057798630875880000,
     -50520699081003392428960000, 5322512674746973445361000, -186929454278916982574700],
    [105861020974158151415700000000000000000000000, -14292977576279351916940000000000000000000000, 991130170383554547287400000000000000000000,
     -70799031078760498465090000000000000000000, 5229587914675267516134000000000000000000, -401607134596408929621200000000000000000,
     32317347144229264537410000000000000000, -2752870944370338482109000000000000000, 250305974188500953063000000000000000,
     -24186990005948904232780000000000000, 2410158905786160001792000000000000, -232725434113217400094900000000000,
     19582844115630564927270000000000, -1099893145048991004460000000000, -29590852925269913176970000000,
     19663661792762952030820000000, -3314408783993662492621000000, 363552031813381462208900000,
     -25508269192151046488000000, 383009058717826254228800, 183669376315921612273900],
    [80246372078078147393140000000000000000000000, -11366148915493060294130000000000000000000000, 816424975062866185601400000000000000000000,
     -59519647787013289430180000000000000000000, 4407349502747483429390000000000000000000, -331774682618453113386200000000000000000,
     25414835698805716803650000000000000000, -1983391157250772649001000000000000000, 157905061449127733558100000000000000,
     -12845920985515375183220000000000000, 1070070857004674207604000000000000, -91518322973625222519500000000000,
     8065447314948125338081000000000, -736010584760705631591500000000, 69959660001874071972830000000,
     -6964349343411584120055000000, 726878935918977822322500000, -78851252419477690240190000,
     8689022564130615225208000, -935321130438123155463400, 92182804048992984047560]
  ]

/-- Lower and upper bounds of the six intervals, specfunc_dawson.c:106-111, 201-203, 249-251, 297-299, 345-349, 395-397, 443-447. -/
def dawIntervals : List (ℚ × ℚ) := [(1, 1.75), (1.75, 2.5), (2.5, 3.25), (3.25, 4.25), (4.25, 5.5), (5.5, 7.25)]

/-- The array `c` of the `i`-th expansion. -/
noncomputable def dawCoef (i : Nat) : List ℝ := (dawRows.getD i []).map fun z : ℤ => (z : ℝ) / 10 ^ 45

/-- `xChebyshev_Tn_Series`, specfunc_dawson.c:545-566. The state of the loop is `(yp2, yp1)`; `k = degree - i`. -/
noncomputable def chebSeries (x : ℝ) (a : List ℝ) (degree : Int) : Outcome ℝ :=
  if degree < 0 then .ok 0 else do
    let s ← forRange degree.toNat ((0 : ℝ), (0 : ℝ)) fun i s => do
      let ak ← rd a (degree.toNat - i)
      .ok (s.2, (x + x) * s.2 - s.1 + ak)
    let a0 ← rd a 0
    .ok (x * s.2 - s.1 + a0)

/-- The loop of `Dawson_Power_Series`, specfunc_dawson.c:152-158, with `y` steps done. `fuel` steps are left before `y + y + 1` overflows. -/
noncomputable def dawPowerLoop (eps x : ℝ) : Nat → Nat → ℝ → ℝ → ℝ → ℝ → Outcome ℝ
  | 0, _, _, _, _, _ => .ub
  | fuel + 1, y, sum, term, factorial, xn =>
    let sum' := sum + term
    let factorial' := factorial * ((y : ℝ) + 1 + (y + 1) + 1)
    let xn' := xn * (-2 * x * x)
    let term' := xn' / factorial'
    if |term'| > eps / 2 * |sum'| then dawPowerLoop eps x fuel (y + 1) sum' term' factorial' xn' else .ok (x * sum')

/-- `Dawson_Power_Series`, specfunc_dawson.c:141-159. -/
noncomputable def dawPower (eps x : ℝ) : Outcome ℝ := if x = 0 then .ok 0 else dawPowerLoop eps x (2 ^ 30 - 1) 0 0 1 1 1

/-- `Dawson_Chebyshev_Expansion_*`, specfunc_dawson.c:185-207, 233-255, 281-303, 329-353, 379-401, 427-451. -/
noncomputable def dawCheb (i : Nat) (x : ℝ) : Outcome ℝ := do
  let c := dawCoef i
  let b := dawIntervals.getD i (0, 0)
  let daw ← chebSeries ((|x| - ((b.2 : ℝ) + b.1) / 2) / (((b.2 : ℝ) - b.1) / 2)) c ((c.length : Int) - 1)
  .ok (if x > 0 then daw else -daw)

/-- The first loop of `Dawson_Asymptotic_Expansion`, specfunc_dawson.c:488-493, from `n`; returns `n` and `term` as the loop leaves them. -/
noncomputable def dawAsymLoop (eps two_x2 : ℝ) : Nat → Nat → ℝ → ℝ → List (Option ℝ) → Outcome (Nat × List (Option ℝ))
  | 0, n, _, _, term => .ok (n, term)
  | fuel + 1, n, xn, factorial, term => do
    let xn' := xn * two_x2
    let factorial' := factorial * ((n : ℝ) + n - 1)
    let term ← wr term n (some (factorial' / xn'))
    if factorial' / xn' < eps / 2 then .ok (n, term) else dawAsymLoop eps two_x2 fuel (n + 1) xn' factorial' term

/-- `Dawson_Asymptotic_Expansion`, specfunc_dawson.c:475-500. The last loop `for (; n >= 0; n--)` is indexed by `k = n_0 - n`. -/
noncomputable def dawAsym (eps x : ℝ) : Outcome ℝ := do
  let x2 := x * x
  let two_x2 := x2 + x2
  let term ← wr (List.replicate 51 none) 0 (some (1 : ℝ))
  let term ← wr term 1 (some (1 / two_x2))
  let r ← dawAsymLoop eps two_x2 49 2 two_x2 1 term
  let n := if r.1 > 50 then 50 else r.1
  let s ← forRange (n + 1) (0 : ℝ) fun k s => do
    let t ← rdInit r.2 (n - k)
    .ok (s + t)
  .ok (s / (x + x))

/-- `xDawsons_Integral`, specfunc_dawson.c:101-113; `Dawsons_Integral` (73-76) only converts. -/
noncomputable def dawsonC (eps x : ℝ) : Outcome ℝ :=
  if |x| ≤ 1 then dawPower eps x
  else if |x| ≤ 1.75 then dawCheb 0 x
  else if |x| ≤ 2.50 then dawCheb 1 x
  else if |x| ≤ 3.25 then dawCheb 2 x
  else if |x| ≤ 4.25 then dawCheb 3 x
  else if |x| ≤ 5.50 then dawCheb 4 x
  else if |x| ≤ 7.25 then dawCheb 5 x
  else dawAsym eps x

end Libgrpp
