import Verif.Model.Blackout
import Verif.Model.Haversine
import Verif.Model.Idw
import Verif.Model.KR
import Verif.Model.Mlp
import Verif.Model.Nearby
import Verif.Model.Stats
import Verif.Model.Torch
import Verif.Model.TfInference
import Verif.Model.WaaModels
import Verif.Model.WetAntennaSchleiss
import Verif.Model.Wrapper

/-!
# The model run on the inputs of the test suite

The functions of the model that are generic in the number type, run with the doubles of the machine on the inputs of
/repo/pycomlink/tests and compared with the results stored there, to the number of digits the tests ask for. These are tests of the
model, not proofs; nothing else imports this file.

Not run: tests that need example files or trained networks (of the networks only the positions of the predictions are compared),
interpolated power law parameters (here only tabulated frequencies), kriging, the wet antenna model of Leijnse et al., and the
variogram climatology.
-/

namespace Verif.Conformance
open Verif

instance : PyFloat Float where
  nan := 0.0 / 0.0
  isNaN := Float.isNaN
  add a b := a + b
  sub a b := a - b
  mul a b := a * b
  div a b := a / b
  lt a b := decide (a < b)
  le a b := decide (a ≤ b)
  eq a b := a == b
  ofInt := Float.ofInt

instance : PySqrt Float := ⟨Float.sqrt⟩
instance : PyPow Float := ⟨Float.pow⟩
instance : WaaModels.PyExp Float := ⟨Float.exp⟩

instance : Haversine.PyTrig Float where
  radians x := x * 3.141592653589793 / 180
  sin := Float.sin
  cos := Float.cos
  sq x := x * x
  half := Float.sqrt
  arctan2 := Float.atan2

def nan : Float := 0.0 / 0.0

/-- `np.testing.assert_array_almost_equal` with the given tolerance -/
def close (tol : Float) (xs ys : List Float) : Bool :=
  xs.length == ys.length && (xs.zip ys).all fun p => (p.1.isNaN && p.2.isNaN) || (p.1 - p.2).abs < tol

def closeE (tol : Float) (r : Except Err (List Float)) (ys : List Float) : Bool :=
  match r with
  | .ok xs => close tol xs ys
  | .error _ => false

def isErr {α : Type} (e : Err) : Except Err α → Bool
  | .ok _ => false
  | .error e' => decide (e = e')

/-- `np.linspace` -/
def lsp (a b : Float) (n : Nat) : List Float := (List.range n).map fun k => a + (b - a) * Float.ofNat k / Float.ofNat (n - 1)

/-! ### test_blackout_gap_detection.py -/

def blackoutRef : List Bool := [false, false, false, false, false, false, false, false, false, true, false, false]

def blackoutSeries : List (List Float) :=
  [[-63, -66, -67, -69, -64, nan, -64, -66, -70, nan, -70, -68],
   [nan, -66, -67, -69, -64, nan, -64, -66, -70, nan, -70, -68],
   [-63, -66, -67, -69, -64, nan, -64, -66, -70, nan, -70, nan]]

/-- The mask of the test, L18-L29: unlike in the notebook (`Blackout.twoSidedMask`) the second call gets the markers in reverse
order but the series itself in its original order. -/
def blackoutTest (rsl : List Float) : Except Err (List Bool) := do
  let m ← Blackout.gapMask rsl (Blackout.startEnd rsl (-65)).1 (Blackout.startEnd rsl (-65)).2
  let r ← Blackout.gapMask rsl (Blackout.startEnd rsl (-65)).2.reverse (Blackout.startEnd rsl (-65)).1.reverse
  return List.zipWith (· || ·) m r.reverse

def maskIs (r : Except Err (List Bool)) (m : List Bool) : Bool :=
  match r with
  | .ok m' => m' == m
  | .error _ => false

#guard blackoutSeries.all fun rsl => maskIs (blackoutTest rsl) blackoutRef
-- the notebook's call masks also the missing first sample of the second series; in the third, sample 10 both starts and ends a gap,
-- which leaves the missing last sample unmasked (L63-L64)
#guard maskIs (Blackout.twoSidedMask (blackoutSeries.getD 0 []) (-65)) blackoutRef
#guard maskIs (Blackout.twoSidedMask (blackoutSeries.getD 1 []) (-65)) (blackoutRef.set 0 true)
#guard maskIs (Blackout.twoSidedMask (blackoutSeries.getD 2 []) (-65)) blackoutRef

/-! ### test_idw.py, test_interpolator.py -/

/-- all points by distance, as the k-d tree returns them -/
def nearest (pts : List (Float × Float)) (k : Nat) (q : Float × Float) : List (Float × Nat) :=
  let d := pts.mapIdx fun i p => (Float.sqrt ((p.1 - q.1) * (p.1 - q.1) + (p.2 - q.2) * (p.2 - q.2)), i)
  let s := d.mergeSort fun a b => a.1 ≤ b.1
  s.take k ++ List.replicate (k - s.length) (1.0 / 0.0, pts.length)

def idw (pts : List (Float × Float)) (k : Nat) (z : List Float) (p : Float) (q : List (Float × Float)) : List Float :=
  q.map fun q => Idw.idwVal fsum (fun w v => fsum (List.zipWith (· * ·) w v)) 1e-10 z p (nearest pts k q)

#guard close 1.5e-7 (idw [(0, 0), (1, 0)] 6 [1, 0] 1 ((lsp 0 1 11).map fun x => (x, 0)))
  [1, 0.9, 0.8, 0.7, 0.6, 0.5, 0.4, 0.3, 0.2, 0.1, 0]
#guard close 1.5e-7 (idw [(0, 0), (1, 0)] 6 [1, 0] 2 ((lsp 0 1 11).map fun x => (x, 0)))
  [1, 0.98780488, 0.94117647, 0.84482759, 0.69230769, 0.5, 0.30769231, 0.15517241, 0.05882353, 0.01219512, 0]
#guard close 1.5e-7 (idw [(1, -1), (1, 1), (-1, -1), (-1, 1)] 6 [1, 0, 0, 1] 2
    [(0, 0), (0.5, 0.5), (1, 0), (2, 2), (1, 1.1), (0.2, 1), (1, 0.3)])
  [0.5, 0.26470588, 0.5, 0.26470588, 0.00473317, 0.34256927, 0.26870145]
#guard close 1.5e-6 (idw [(1, 2), (2, 4), (3, 3), (4, 5), (5, 1)] 12 [1, 2, 3, 4, 5] 2
    ([0, 2, 4, 6].flatMap fun y => [0, 2, 4, 6].map fun x => (x, y)))
  [2.05352949, 2.54119688, 4.09027081, 4.42468505, 1.45942756, 1.9760479, 3.56701031, 4.23470411,
   2.16589862, 2.0, 3.41317365, 3.54032958, 2.54801273, 2.82949309, 3.66892889, 3.48354789]

/-! ### test_stats.py -/

#guard match Stats.calcWetDryPerformanceMetrics Float.isInf [1, 0, 1, 1, 0, 1, 0, nan, nan, nan] [1, 0, 0, 1, 1, 1, 1, 1, 0, nan] with
  | .error _ => false
  | .ok m => close 1.5e-6 [m.falseWetRate, m.missedWetRate, m.matthewsCorrelation, m.trueWetRate, m.trueDryRate]
      [0.66666667, 0.25, 0.09128709291752767, 0.75, 0.33333334] &&
    [m.counts.nDryReference, m.counts.nWetReference, m.counts.nTp, m.counts.nTn, m.counts.nFp, m.counts.nFn,
      m.counts.nAllPairs, m.counts.nNanPairs, m.counts.nNanReferenceOnly, m.counts.nNanPredictedOnly] == [3, 4, 3, 1, 2, 1, 10, 3, 3, 1]
#guard match Stats.calcWetDryPerformanceMetrics Float.isInf [1, 0, 0] [0, 0, (0 : Float)] with
  | .error _ => false
  | .ok m => close 1.5e-6 [m.matthewsCorrelation] [0]
#guard match Stats.calcWetDryPerformanceMetrics Float.isInf [0, 1, 0, 0, 1, 0, 1, 0, 1, 1, 1] [0, 1, 0, 0, 0, 0, 0, 1, 0, 1, (1 : Float)] with
  | .error _ => false
  | .ok m => close 1.5e-6 [m.matthewsCorrelation] [0.3105295017040594]
#guard match Stats.calcRainErrorPerformanceMetrics [1, 0, 1, 1, 1, 0, 1, 0, nan, nan, nan] [1, 0, 0, 0, 1, 1, 0.01, 1, 1, 0, nan] 0.1 with
  | .error _ => false
  | .ok m => close 1.5e-7 [m.pearsonCorrelation, m.coefficientOfVariation, m.rootMeanSquareError, m.meanAbsoluteError,
        m.rSumReference, m.rSumPredicted, m.rMeanReference, m.rMeanPredicted, m.falseWetRate, m.missedWetRate,
        m.falseWetPrecipitationRate, m.missedWetPrecipitationRate, m.rainfallThresholdWet]
      [-0.256899818, 1.246767019, 0.788994613, 0.62375, 5, 4.01, 0.625, 0.50125, 0.666666666, 0.6, 1, 1, 0.1] &&
    [m.nAllPairs, m.nNanPairs, m.nNanReferenceOnly, m.nNanPredictedOnly] == [11, 3, 3, 1]

/-! ### test_xarray_wrapper.py -/

def fooSig : List (Wrapper.Param String) := [⟨"a", none⟩, ⟨"b", none⟩, ⟨"c", some "None"⟩, ⟨"d", some "1"⟩]
def fooExpected : List (String × Wrapper.Slot String) := [("a", .val "123"), ("b", .val "foo"), ("c", .val "bar"), ("d", .val "1")]
#guard Wrapper.newArgsDict fooSig ["123", "foo", "bar", "1"] [] == fooExpected
#guard Wrapper.newArgsDict fooSig ["123"] [("b", "foo"), ("c", "bar")] == fooExpected

/-! ### test_wet_antenna.py -/

def schleissTrsl : List Float := List.replicate 10 0 ++ List.replicate 30 3 ++ List.replicate 20 0.8 ++ List.replicate 10 0
def schleissWet : List Float := schleissTrsl.map fun x => if x > 1 then 1 else 0
def schleissPick (r : Except Err (List Float)) : List Float :=
  match r with
  | .ok w => [5, 15, 30, 40, 50, 65].map fun i => rd w i
  | .error _ => []
#guard close 1.5e-7 (schleissPick (Waa.waaSchleiss schleissTrsl (List.replicate 70 0) schleissWet 1.5 1 15))
  [0.0, 1.106784, 1.48616494, 0.8, 0.8, 0.0]
#guard close 1.5e-7 (schleissPick (Waa.waaSchleiss schleissTrsl (List.replicate 70 0) schleissWet 1.8 5 30))
  [0.0, 1.771875, 1.79999914, 0.8, 0.8, 0.0]

/-! ### test_k_R_relation.py -/

/-- the power law parameters at a frequency that is in the table -/
def tabulated (f : List Float) (pol : List String) (approx : String) : Except Err (List Float × List Float) := do
  let t ← KR.selectTable approx
  let i := (t.getD 0 []).findIdx fun x => Float.ofNat x / 1e7 == f.headD 0
  let entry (r : Nat) : List Float := [Float.ofNat ((t.getD r []).getD i 0) / 1e7]
  if KR.polH.contains (pol.headD "") then return (entry 1, entry 3)
  else if KR.polV.contains (pol.headD "") then return (entry 2, entry 4)
  else .error .valueError

def okClose (r : Except Err (List Float × List Float)) (a b : Float) : Bool :=
  match r with
  | .ok (x, y) => close 1.5e-7 x [a] && close 1.5e-7 y [b]
  | .error _ => false
#guard okClose (tabulated [30] ["V"] "ITU_2005") 0.2291 0.9129
#guard okClose (tabulated [30] ["H"] "ITU_2005") 0.2403 0.9485
#guard okClose (tabulated [2] ["V"] "ITU_2005") 0.0000998 0.949
#guard okClose (tabulated [2] ["H"] "ITU_2005") 0.0000847 1.0664
#guard okClose (tabulated [22] ["V"] "ITU_2005") 0.117 0.97
#guard okClose (tabulated [22] ["H"] "ITU_2005") 0.1155 1.0329
#guard okClose (tabulated [42] ["V"] "ITU_2005") 0.4712 0.8296
#guard okClose (tabulated [42] ["H"] "ITU_2005") 0.4865 0.8539
#guard okClose (tabulated [62] ["V"] "ITU_2005") 0.8889 0.7424
#guard okClose (tabulated [62] ["H"] "ITU_2005") 0.8974 0.7586
#guard okClose (tabulated [82] ["V"] "ITU_2005") 1.1915 0.6988
#guard okClose (tabulated [82] ["H"] "ITU_2005") 1.1946 0.7077
#guard okClose (tabulated [2] ["V"] "ITU_2003") 1e-4 0.923
#guard okClose (tabulated [35] ["V"] "ITU_2003") 0.233 0.963
#guard okClose (tabulated [90] ["V"] "ITU_2003") 0.999 0.754
#guard okClose (tabulated [2] ["H"] "ITU_2003") 2e-4 0.963
#guard okClose (tabulated [35] ["H"] "ITU_2003") 0.263 0.979
#guard okClose (tabulated [90] ["H"] "ITU_2003") 1.06 0.753
#guard isErr .valueError (tabulated [30] ["b"] "ITU_2005")
#guard isErr .valueError (tabulated [30] ["H"] "ITU_2000")

def rain (A : List Float) (L : Float) (f : Option (List Float)) (pol : Option (List String)) (a b : Option (List Float))
    (approx : String) : Except Err (List Float) :=
  KR.calcR tabulated A L f pol a b approx 0.1
#guard closeE 1.5e-7 (rain [5] 5 (some [30]) (some ["H"]) none none "ITU_2005") [4.49644185]
#guard closeE 1.5e-7 (rain [5] 5 (some [30]) (some ["H"]) none none "ITU_2003") [5.1663233]
#guard isErr .valueError (rain [2] 42 (some [10]) none none none "ITU_2005")
#guard isErr .valueError (rain [2] 42 (some [10]) none (some [3.1]) none "ITU_2005")
#guard isErr .valueError (rain [2] 42 (some [10]) (some ["H"]) (some [1]) none "ITU_2005")
#guard closeE 1.5e-7 (rain [0, 7.5, 15, nan, 30] 0.1 (some [80]) (some ["H"]) none none "ITU_2005")
  [0.0, 346.1952323, 917.0924868, nan, 2429.43446609]
#guard closeE 1.5e-7 (rain [0, 7.5, 15, nan, 30] 5 (some [30]) (some ["H"]) none none "ITU_2005")
  [0.0, 6.89479467, 14.31845421, nan, 29.7352047]
#guard closeE 1.5e-7 (rain [0, 7.5, 15, nan, 30] 30 (some [12]) (some ["H"]) none none "ITU_2005")
  [0.0, 7.29133826, 13.10322105, nan, 23.54772138]
#guard closeE 1.5e-7 (rain [0, 7.5, 15, nan, 30] 50 (some [5]) (some ["H"]) none none "ITU_2005")
  [0.0, 47.24635411, 71.08341151, nan, 106.946906]

/-! ### test_wet_antenna.py, Pastorek et al. 2021 -/

def pastorekR : List Float := [1e-3, 1e-2, 1e-1, 1, 10, 100]
#guard closeE 1.5e-7 (WaaModels.waa_pastorek_2021 (.array pastorekR) 5 0.55 0.1)
  [0.01118109, 0.03955909, 0.13895185, 0.47581291, 1.49347849, 3.58020499]
#guard closeE 1.5e-7 (WaaModels.waa_pastorek_2021 (.array pastorekR) 14 0.55 0.1)
  [0.03130704, 0.11076545, 0.38906518, 1.33227615, 4.18173977, 10.02457398]
#guard closeE 1.5e-7 (WaaModels.waa_pastorek_2021 (.array pastorekR) 20 0.55 0.1)
  [0.04472434, 0.15823636, 0.55580741, 1.90325164, 5.97391396, 14.32081997]
#guard closeE 1.5e-7 (WaaModels.waa_pastorek_2021 (.array pastorekR) 14 0.3 0.1)
  [0.17514477, 0.34728415, 0.68436903, 1.33227615, 2.53233773, 4.59773931]
#guard closeE 1.5e-7 (WaaModels.waa_pastorek_2021 (.array pastorekR) 14 0.65 0.1)
  [0.01569945, 0.06999067, 0.30993868, 1.33227615, 5.04355184, 12.09630827]

/-- the look-up of `waa_pastorek_2021_from_A_obs` with doubles in place of the reals of the model -/
def pastorekLookup (A_obs : List Float) (f_GHz L_km : Float) (pol : String) : Except Err (List Float) := do
  let A_rain : List Float := (List.range 100).map fun k =>
    if k = 0 then 0 else Float.pow 10 (-10 + 13 * Float.ofNat k / 99)
  let R ← KR.calcR tabulated A_rain L_km (some [f_GHz]) (some [pol]) none none "ITU_2005" 0
  let waa ← WaaModels.waa_pastorek_2021 (.array R) 14 0.55 0.1
  A_obs.mapM (WaaModels.interp1dLinear (List.zipWith (· + ·) A_rain waa) waa)
#guard closeE 1.5e-7 (pastorekLookup [0, 1, 2, 3, 4, 5, 6, 7, 8, 9] 23 10 "H")
  [0.0, 0.66274715, 1.10407043, 1.45760649, 1.76189926, 2.0291218, 2.26924516, 2.49339808, 2.69506481, 2.88842441]

/-! ### test_nearby_wetdry.py -/

def nbPmin : List Float :=
  List.replicate 1460 (-40) ++ lsp (-40) (-60) 15 ++ lsp (-60) (-40) 25 ++ List.replicate 60 (-40) ++ lsp (-40) (-50) 300 ++
    lsp (-50) (-40) 60 ++ List.replicate 60 (-40) ++ lsp (-40) (-70) 20 ++ lsp (-70) (-40) 20 ++ List.replicate 30 (-40)
def siteA : List (Haversine.SiteF Float) := [⟨0, 0⟩, ⟨0.01, 0.01⟩, ⟨0.02, 0.02⟩, ⟨0.5, 0.5⟩, ⟨-0.075, -0.075⟩]
def siteB : List (Haversine.SiteF Float) := [⟨0.01, 0.005⟩, ⟨0.02, 0.02⟩, ⟨0.03, 0.0⟩, ⟨0.51, 0.512⟩, ⟨0.075, 0.075⟩]
def nbIds : List Nat := [0, 1, 2, 3, 4]
def nbDist := Haversine.calcDistancesF nbIds siteA siteB

#guard close 1.5e-6 ((nbDist.a_to_all_a.take 4).flatMap (·.take 4))
  [0, 1.57154642, 3.14309282, 78.57682262, 1.57154642, 0, 1.5715464, 77.0052762, 3.14309282, 1.5715464, 0, 75.4337298,
   78.57682262, 77.0052762, 75.4337298, 0]

def nbResult : Except Err (List (List Float × List Float)) :=
  Nearby.nearby_wetdry ⟨nbIds, List.zipWith Haversine.distF siteA siteB, List.replicate 5 nbPmin⟩
    ⟨nbIds, nbDist.a_to_all_a, nbDist.a_to_all_b, nbDist.b_to_all_a, nbDist.b_to_all_b⟩ ⟨15, -2, -0.3, 3, 15, 24, 6⟩

#guard match nbResult with
  | .error _ => false
  | .ok rows =>
    close 1.5e-6 (((rows.getD 0 ([], [])).1.drop 1950).take 99)
      (List.replicate 30 0 ++ List.replicate 39 1 ++ List.replicate 29 0 ++ [1]) &&
    close 1.5e-6 [fsum (valid (rows.getD 4 ([], [])).1), fsum (valid (rows.flatMap (·.2)))] [328, 7086.41961]

/-! ### test_nearby_rainfall.py -/

#guard closeE 1.5e-6 (Nearby.reference_level_checked (lsp 0 (-30) 200) (lsp 0 10 200) (List.replicate 100 1 ++ List.replicate 100 0) 96 1)
  (List.replicate 100 nan ++ ((List.range 96).map fun k => -5.02512563 - Float.ofNat k * (7.4120603 - 5.02512563) / 95) ++
    [-7.46231156, -7.51256281, -7.56281407, -7.61306533])

def corrWet : List Float := List.replicate 50 0 ++ List.replicate 35 1 ++ [0] ++ List.replicate 14 1
def corrected (pref : Float) : List Float × List Float :=
  Nearby.correct_received_signals (lsp 0 (-30) 100) (lsp 0 (-20) 100) corrWet (List.replicate 100 pref)
def corrExpected (step : Float) : List Float :=
  (List.range 100).map fun k => if k < 50 || k == 85 then -8 else -step * Float.ofNat k
#guard close 1.5e-6 (corrected (-8)).1 (corrExpected (30 / 99))
#guard close 1.5e-6 (corrected (-8)).2 (corrExpected (20 / 99))

def retrieved (f : Option (List Float)) (pol : Option (List String)) (a b : Option (List Float)) : Except Err (List Float) :=
  Nearby.retrieval tabulated (List.replicate 100 (-4)) (corrected (-4)).1 (corrected (-4)).2
    (List.replicate 20 (-20) ++ [-44] ++ List.replicate 79 (-20)) 5 f pol a b "ITU_2005" 2.3 0.33 (some (-32.5))
def dryPart : List Float := List.replicate 20 0 ++ [nan] ++ List.replicate 29 0
#guard closeE 1.5e-6 (retrieved (some [25]) (some ["v"]) none none) (dryPart ++
  [7.96550311, 8.32540146, 8.68612906, 9.04765236, 9.40994058, 9.77296534, 10.13670042, 10.50112148, 10.86620588, 11.23193249,
   11.59828156, 11.96523457, 12.3327741, 12.70088379, 13.06954817, 13.43875265, 13.80848339, 14.1787273, 14.54947193, 14.92070547,
   15.29241665, 15.66459473, 16.03722948, 16.41031112, 16.78383027, 17.15777799, 17.53214568, 17.90692511, 18.28210837, 18.65768786,
   19.03365627, 19.41000656, 19.78673197, 20.16382595, 20.54128222, 0, 21.29725748, 21.67576492, 22.05461152, 22.43379198,
   22.81330115, 23.19313405, 23.57328585, 23.95375188, 24.33452759, 24.71560858, 25.09699057, 25.4786694, 25.86064103, 26.24290154])
#guard closeE 1.5e-6 (retrieved none none (some [1]) (some [1])) (dryPart ++
  [1.09353535, 1.14060606, 1.18767677, 1.23474747, 1.28181818, 1.32888889, 1.3759596, 1.4230303, 1.47010101, 1.51717172,
   1.56424242, 1.61131313, 1.65838384, 1.70545455, 1.75252525, 1.79959596, 1.84666667, 1.89373737, 1.94080808, 1.98787879,
   2.03494949, 2.0820202, 2.12909091, 2.17616162, 2.22323232, 2.27030303, 2.31737374, 2.36444444, 2.41151515, 2.45858586,
   2.50565657, 2.55272727, 2.59979798, 2.64686869, 2.69393939, 0, 2.78808081, 2.83515152, 2.88222222, 2.92929293,
   2.97636364, 3.02343434, 3.07050505, 3.11757576, 3.16464646, 3.21171717, 3.25878788, 3.30585859, 3.35292929, 3.4])
#guard isErr .valueError (retrieved (some [25]) (some ["Vertical"]) none (some [1]))

/-! ### test_wet_dry_mlp.py: which rows are classified -/

def mlpClf : Mlp.Clf Float := fun rows => .ok (rows.map fun _ => (0.5, 0.5))
#guard match Mlp.mlpWetDry ⟨mlpClf, mlpClf, mlpClf, mlpClf⟩ ((lsp 0 20 480).set 304 nan) (lsp 0 20 480) "rad_online" with
  | .error _ => false
  | .ok p => p.length == 480 && ((p.drop 298).take 10).map (·.2.isNaN) == List.replicate 6 false ++ List.replicate 4 true

/-! ### test_pytorch_utils.py, test_tensorflow_utils.py: where the predictions are stored -/

#guard match Torch.cnnWd (fun ws => ws.map fun _ => [(0.5 : Float)]) none ⟨["0"], List.range 260, [List.range 260]⟩ 32 60 with
  | .error _ => false
  | .ok g => (g.take 150).all (·.all Float.isNaN) && ((g.drop 150).take 80).all (·.all fun x => !x.isNaN)
#guard match Tf.storePredictions ["0"] 180 [(0.07733 : Float)] ["0"] [179] none with
  | .error _ => false
  | .ok g => (g.take 179).all (·.all Float.isNaN) && close 1.5e-5 (g.getD 179 []) [0.07733]

/-! ### test_cmlh5_to_xarray.py: the stored time stamps are multiples of the spacing of doubles near 1.5e18 -/

#guard [1498675570226388992, 1498675630222681088, 1498675690229869056, 1498675750166190080, 1498675870229346048,
  1498675930227350016, 1498678208294352896, 1498678268274571008, 1498678328295169024, 1498678448278542080, 1498678508276589056,
  1498678568277197056].all fun t => t % 256 == 0

end Verif.Conformance
