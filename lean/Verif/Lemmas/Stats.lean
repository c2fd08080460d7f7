import Verif.Model.Stats

/-! # Lemmas: `stats.py` as computations on a list of pairs -/

namespace Verif.Stats

theorem boolIndex_map {α β : Type} (zs : List β) (f : β → α) (g : β → Bool) :
    boolIndex (zs.map f) (zs.map g) = (zs.filter g).map f := by
  unfold boolIndex
  induction zs with
  | nil => rfl
  | cons z zs ih =>
    simp only [List.map_cons, List.zip_cons_cons, List.filter_cons]
    cases g z <;> simp [ih]

theorem bsum_map {β : Type} (zs : List β) (g : β → Bool) : bsum (zs.map g) = zs.countP g := by
  unfold bsum
  rw [List.count, List.countP_map]
  congr 1
  funext z
  simp

theorem band_map {β : Type} (zs : List β) (f g : β → Bool) :
    band (zs.map f) (zs.map g) = zs.map fun z => f z && g z := by
  unfold band
  rw [List.zipWith_map, List.zipWith_self]

theorem bnot_map {β : Type} (zs : List β) (f : β → Bool) :
    bnot (zs.map f) = zs.map fun z => !f z := by
  simp [bnot]

variable {F : Type} [PyFloat F]

/-- neither value of the pair is NaN -/
def validPair (z : F × F) : Bool := !(isNaN z.1 || isNaN z.2)

theorem nanIndex_map (zs : List (F × F)) :
    nanIndex (zs.map (·.1)) (zs.map (·.2)) = zs.map fun z => isNaN z.1 || isNaN z.2 := by
  unfold nanIndex
  rw [List.map_map, List.map_map, List.zipWith_map, List.zipWith_self]
  rfl

theorem exists_pairs {α : Type} {r p : List α} (h : r.length = p.length) :
    r = (r.zip p).map (·.1) ∧ p = (r.zip p).map (·.2) := by
  refine ⟨?_, ?_⟩
  · rw [List.map_fst_zip (by omega)]
  · rw [List.map_snd_zip (by omega)]

/-- positive value -/
def pos (x : F) : Bool := PyFloat.ofInt 0 <ᶠ x

theorem wetDryCounts_pairs (zs : List (F × F)) :
    wetDryCounts (zs.map (·.1)) (zs.map (·.2)) = .ok
      (let vs := zs.filter validPair
      { nNanPairs := zs.countP fun z => isNaN z.1 || isNaN z.2
        nAllPairs := zs.length
        nNanReferenceOnly := zs.countP fun z => isNaN z.1
        nNanPredictedOnly := zs.countP fun z => isNaN z.2
        nTp := vs.countP fun z => pos z.1 && pos z.2
        nTn := vs.countP fun z => !pos z.1 && !pos z.2
        nFp := vs.countP fun z => !pos z.1 && pos z.2
        nFn := vs.countP fun z => pos z.1 && !pos z.2
        nWetReference := vs.countP fun z => pos z.1
        nDryReference := vs.countP fun z => !pos z.1
        nPredictedWet := vs.countP fun z => pos z.2 }) := by
  unfold wetDryCounts wetDryCountsArr
  rw [if_neg (by simp [Arr.of])]
  show Except.ok _ = _
  congr 1
  dsimp only [Arr.of]
  rw [nanIndex_map, bnot_map, boolIndex_map, boolIndex_map]
  simp only [List.map_map, bnot_map, band_map, bsum_map, List.length_map, Function.comp_def]
  rfl

theorem calcWetDry_eq [PySqrt F] (isInf : F → Bool) (r p : List F) :
    calcWetDryPerformanceMetrics isInf r p = (do
      let c ← wetDryCounts r p
      return {
        trueWetRate := divNat c.nTp c.nWetReference
        trueDryRate := divNat c.nTn c.nDryReference
        falseWetRate := divNat c.nFp c.nDryReference
        missedWetRate := divNat c.nFn c.nWetReference
        matthewsCorrelation := matthews isInf c
        counts := c }) := rfl

end Verif.Stats
