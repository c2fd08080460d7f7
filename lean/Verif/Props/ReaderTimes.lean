import Verif.Model.Reader
import Verif.Props.Reader
import Verif.Props.Rounding
import Verif.RoundingReal

/-!
# Property C152: time stamps and frequencies of the cmlh5 reader in double precision
-/

namespace Verif.Props
open Verif Verif.Reader Verif.Bin

section
variable {K : Type} [Field K] [LinearOrder K] [IsStrictOrderedRing K] [FloorRing K]

omit [IsStrictOrderedRing K] in
theorem truncNs_mono {x y : K} [IsStrictOrderedRing K] (h : x ≤ y) : truncNs (.fin x) ≤ truncNs (.fin y) := by
  unfold truncNs
  dsimp only
  split_ifs with h1 h2 h2
  · exact Int.floor_mono h
  · exact absurd (h1.trans h) h2
  · have a : ⌈x⌉ ≤ 0 := Int.ceil_le.mpr (by push_cast; linarith)
    have b : 0 ≤ ⌊y⌋ := Int.le_floor.mpr (by push_cast; linarith)
    omega
  · exact Int.ceil_mono h

theorem truncNs_int (n : ℤ) : truncNs (.fin (n : K)) = n := by
  unfold truncNs
  dsimp only
  split_ifs <;> simp

theorem truncNs_err (x : K) : |((truncNs (.fin x) : ℤ) : K) - x| ≤ 1 := by
  unfold truncNs
  dsimp only
  rw [abs_le]
  split_ifs with h
  · have a := Int.floor_le x
    have b := (Int.lt_floor_add_one x).le
    constructor <;> linarith
  · have a := Int.le_ceil x
    have b := (Int.ceil_lt_add_one x).le
    constructor <;> linarith

/-- Integer multiples of a power of two with at most 53 bits, of either sign, are doubles. -/
theorem binary64_dyadic_signed {m : ℤ} {e : ℤ} (hm : |m| ≤ 2 ^ 53) (he : -1074 ≤ e) (he' : e ≤ 900) :
    (binary64 (K := K)).rnd ((m : K) * 2 ^ e) = .fin ((m : K) * 2 ^ e) := by
  rcases le_or_gt 0 m with h | h
  · exact binary64_dyadic h (by rwa [abs_of_nonneg h] at hm) he he'
  · have h1 := binary64_dyadic (K := K) (m := -m) (e := e) (by omega) (by rwa [abs_of_neg h] at hm) he he'
    have hne : (((-m : ℤ) : K) * 2 ^ e) ≠ 0 := by
      apply mul_ne_zero
      · exact_mod_cast (by omega : -m ≠ 0)
      · exact (two_zpow_pos e).ne'
    have h2 := rndFmt_neg (p := 53) (emin := -1074) 1024 hne
    have h3 : (binary64 (K := K)).rnd (-(((-m : ℤ) : K) * 2 ^ e)) = Fl.neg ((binary64 (K := K)).rnd (((-m : ℤ) : K) * 2 ^ e)) := h2
    rw [h1] at h3
    have e1 : -(((-m : ℤ) : K) * 2 ^ e) = (m : K) * 2 ^ e := by push_cast; ring
    rw [e1] at h3
    rw [h3]
    show Fl.fin (-(((-m : ℤ) : K) * 2 ^ e)) = _
    rw [e1]

theorem binary64_int_signed {m : ℤ} (hm : |m| ≤ 2 ^ 53) : (binary64 (K := K)).rnd (m : K) = .fin (m : K) := by
  have := binary64_dyadic_signed (K := K) (m := m) (e := 0) hm (by norm_num) (by norm_num)
  simpa using this

theorem val_giga : (PyFloat.ofInt 1000000000 : RFl (binary64 (K := K))).val = .fin 1000000000 := by
  rw [RFl.val_ofInt, binary64_int_signed (by norm_num)]
  norm_num

theorem timeNs_val (t : RFl (binary64 (K := K))) {x : K} (h : t.val = .fin x) :
    timeNs t = truncNs ((binary64 (K := K)).rnd (x * 1000000000)) := by
  unfold timeNs
  rw [RFl.val_mul, h, val_giga]
  rfl

/-- **C152** Times of whole seconds become exact nanosecond time stamps for all dates from 1824 to 2115, although most numbers of
nanoseconds since 1970 are no doubles. -/
theorem C152_whole_seconds (t : ℤ) (ht : |t| ≤ 4611686018) :
    timeNs (PyFloat.ofInt t : RFl (binary64 (K := K))) = t * 1000000000 := by
  have hv : (PyFloat.ofInt t : RFl (binary64 (K := K))).val = .fin (t : K) := by
    rw [RFl.val_ofInt, binary64_int_signed (ht.trans (by norm_num))]
  rw [timeNs_val _ hv]
  have e : (t : K) * 1000000000 = ((t * 1953125 : ℤ) : K) * 2 ^ (9 : ℤ) := by
    push_cast
    norm_num
    ring
  rw [e, binary64_dyadic_signed (by rw [abs_mul]; norm_num; omega) (by norm_num) (by norm_num), ← e,
    show (t : K) * 1000000000 = ((t * 1000000000 : ℤ) : K) by push_cast; ring, truncNs_int]

theorem rintK_of_floor {x : K} {f : ℤ} (h1 : (f : K) + 1 / 2 < x) (h2 : x < f + 1) : Verif.MinMax.rintK x = f + 1 := by
  have hf : ⌊x⌋ = f := Int.floor_eq_iff.mpr ⟨by linarith, h2⟩
  unfold Verif.MinMax.rintK
  dsimp only
  rw [hf, if_neg (by linarith), if_pos (by linarith)]

theorem rintK_tie {x : K} {f : ℤ} (h : x = f + 1 / 2) (ho : f % 2 = 1) : Verif.MinMax.rintK x = f + 1 := by
  have hf : ⌊x⌋ = f := Int.floor_eq_iff.mpr ⟨by rw [h]; linarith, by rw [h]; linarith⟩
  unfold Verif.MinMax.rintK
  dsimp only
  rw [hf, if_neg (by rw [h]; linarith), if_neg (by rw [h]; linarith), if_neg (by omega)]

/-- **C152** The next second is the first that is not exact. -/
theorem C152_limit : timeNs (PyFloat.ofInt 4611686019 : RFl (binary64 (K := K))) = 4611686019 * 1000000000 + 512 := by
  have hv : (PyFloat.ofInt 4611686019 : RFl (binary64 (K := K))).val = .fin ((4611686019 : ℤ) : K) := by
    rw [RFl.val_ofInt, binary64_int_signed (by norm_num)]
  rw [timeNs_val _ hv]
  have := binary64_rnd (K := K) (x := ((4611686019 : ℤ) : K) * 1000000000) (k := 62) (m := 4503599627929687 + 1) (by norm_num) (by norm_num)
    (by norm_num) (by norm_num) (rintK_tie (by norm_num) (by norm_num))
  rw [this]
  rw [show ((4503599627929687 + 1 : ℤ) : K) * 2 ^ ((62 : ℤ) - 52) = ((4503599627929688 * 1024 : ℤ) : K) by norm_num, truncNs_int]
  norm_num

theorem timeNs_close (t : RFl (binary64 (K := K))) {x : K} (h : t.val = .fin x) (hx : |x| ≤ 4200000000) :
    ∃ z, (binary64 (K := K)).rnd (x * 1000000000) = .fin z ∧ |z - x * 1000000000| ≤ 467 := by
  have hb : |x * 1000000000| ≤ 4200000000 * 1000000000 := by
    rw [abs_mul, abs_of_pos (by norm_num : (0 : K) < 1000000000)]
    exact mul_le_mul_of_nonneg_right hx (by norm_num)
  obtain ⟨z, hz, he⟩ := (binary64_precision (K := K)).err (x * 1000000000) (hb.trans (by
    have : (2 : K) ^ (63 : ℤ) ≤ 2 ^ (1023 : ℤ) := zpow_le_zpow_right₀ one_le_two (by norm_num)
    refine le_trans ?_ this
    norm_num))
  refine ⟨z, hz, he.trans ?_⟩
  have h1 : (2 : K) ^ (-1075 : ℤ) ≤ 2 ^ (-53 : ℤ) := zpow_le_zpow_right₀ one_le_two (by norm_num)
  have h2 : (2 : K) ^ (-53 : ℤ) * |x * 1000000000| ≤ 2 ^ (-53 : ℤ) * (4200000000 * 1000000000) :=
    mul_le_mul_of_nonneg_left hb (by positivity)
  have h3 : (2 : K) ^ (-53 : ℤ) * (4200000000 * 1000000000) + 2 ^ (-53 : ℤ) ≤ 467 := by norm_num
  linarith

/-- **C152** Any time from 1837 to 2102 (fractions of seconds included) is off by less than half a microsecond. -/
theorem C152_error (t : RFl (binary64 (K := K))) {x : K} (h : t.val = .fin x) (hx : |x| ≤ 4200000000) :
    |((timeNs t : ℤ) : K) - x * 1000000000| < 500 := by
  obtain ⟨z, hz, he⟩ := timeNs_close t h hx
  rw [timeNs_val t h, hz]
  have h1 := truncNs_err z
  calc |((truncNs (.fin z) : ℤ) : K) - x * 1000000000| ≤ |((truncNs (.fin z) : ℤ) : K) - z| + |z - x * 1000000000| := abs_sub_le _ _ _
    _ ≤ 1 + 467 := add_le_add h1 he
    _ < 500 := by norm_num

/-- **C152** A missing time (NaN) becomes the missing time stamp NaT (the smallest 64-bit integer), and no time from 1837 to 2102 does. -/
theorem C152_missing (t : RFl (binary64 (K := K))) :
    (t.val = .nan → timeNs t = -2 ^ 63) ∧ ∀ x, t.val = .fin x → |x| ≤ 4200000000 → timeNs t ≠ -2 ^ 63 := by
  constructor
  · intro h
    unfold timeNs
    rw [RFl.val_mul, h]
    rfl
  · intro x h hx hc
    have h1 := abs_lt.mp (C152_error t h hx)
    have h2 := abs_le.mp hx
    rw [hc] at h1
    push_cast at h1
    linarith [h1.1, h1.2, h2.1, h2.2]

/-- **C152** The order of samples is kept; samples that are at least a microsecond apart get different time stamps. -/
theorem C152_order (t t' : RFl (binary64 (K := K))) {x y : K} (h : t.val = .fin x) (h' : t'.val = .fin y)
    (hx : |x| ≤ 4200000000) (hy : |y| ≤ 4200000000) :
    (x ≤ y → timeNs t ≤ timeNs t') ∧ (x + 1 / 1000000 ≤ y → timeNs t < timeNs t') := by
  constructor
  · intro hxy
    obtain ⟨z, hz, -⟩ := timeNs_close t h hx
    obtain ⟨z', hz', -⟩ := timeNs_close t' h' hy
    rw [timeNs_val t h, timeNs_val t' h', hz, hz']
    have := (binary64 (K := K)).mono (x * 1000000000) (y * 1000000000) (mul_le_mul_of_nonneg_right hxy (by norm_num))
    rw [hz, hz'] at this
    exact truncNs_mono (by simpa using this)
  · intro hxy
    obtain ⟨z, hz, he⟩ := timeNs_close t h hx
    obtain ⟨z', hz', he'⟩ := timeNs_close t' h' hy
    rw [timeNs_val t h, timeNs_val t' h', hz, hz']
    have h1 := abs_le.mp (truncNs_err z)
    have h2 := abs_le.mp (truncNs_err z')
    have h3 := abs_le.mp he
    have h4 := abs_le.mp he'
    have : ((truncNs (.fin z) : ℤ) : K) < ((truncNs (.fin z') : ℤ) : K) := by linarith
    exact_mod_cast this

/-- a double near 1.5e9 s -/
def nearTime (m : ℤ) (hm : |6291456000000000 + m| ≤ 2 ^ 53) : RFl (binary64 (K := K)) :=
  ⟨.fin (((6291456000000000 + m : ℤ) : K) * 2 ^ (-22 : ℤ)), binary64_dyadic_signed hm (by norm_num) (by norm_num)⟩

/-- **C152** Different raw times can give the same time stamp: two doubles in July 2017 that are 0.24 microseconds apart. -/
theorem C152_collision : ∃ (t t' : RFl (binary64 (K := K))) (x y : K), t.val = .fin x ∧ t'.val = .fin y ∧ x < y ∧
    timeNs t = timeNs t' := by
  refine ⟨nearTime 7 (by norm_num), nearTime 8 (by norm_num), _, _, rfl, rfl, ?_, ?_⟩
  · push_cast
    have : (0 : K) < 2 ^ (-22 : ℤ) := by positivity
    nlinarith
  · rw [timeNs_val _ rfl, timeNs_val _ rfl]
    have e1 := binary64_rnd (K := K) (x := ((6291456000000000 + 7 : ℤ) : K) * 2 ^ (-22 : ℤ) * 1000000000) (k := 60)
      (m := 5859375000000006 + 1) (by norm_num) (by norm_num) (by norm_num) (by norm_num) (rintK_of_floor (by norm_num) (by norm_num))
    have e2 := binary64_rnd (K := K) (x := ((6291456000000000 + 8 : ℤ) : K) * 2 ^ (-22 : ℤ) * 1000000000) (k := 60)
      (m := 5859375000000007) (by norm_num) (by norm_num) (by norm_num) (by norm_num) (rintK_eq (by norm_num [abs_lt]))
    rw [e1, e2]
    norm_num

/-- **C152** A frequency given in whole Hz becomes the double nearest to its value in GHz, the same as if it had been written
in GHz. -/
theorem C152_frequency (f : ℤ) (hf : |f| ≤ 2 ^ 53) :
    (toGHz (PyFloat.ofInt f : RFl (binary64 (K := K)))).val = (binary64 (K := K)).rnd ((f : K) / 1000000000) := by
  unfold toGHz
  rw [RFl.val_div, val_giga, RFl.val_ofInt, binary64_int_signed hf]
  have : (Fl.fin (f : K) /ᶠ Fl.fin 1000000000) = Fl.fin ((f : K) / 1000000000) := by
    exact Fl.pf_div_fin_ne _ _ (by norm_num)
  rw [this]
  rfl

/-! ### The whole file -/

/-- the file with other raw times -/
def withTimes {X V A T T' : Type} (g : T → T') (file : List (String × Cml X V A T)) : List (String × Cml X V A T') :=
  file.map fun p => (p.1, ⟨p.2.cmlId, p.2.siteALatitude, p.2.siteBLatitude, p.2.siteALongitude, p.2.siteBLongitude,
    p.2.channels.map fun c => (c.1, ⟨c.2.tx, c.2.rx, c.2.time.map (·.map g), c.2.frequency, c.2.polarization⟩)⟩)

theorem channelDs_withTimes {X V A T T' : Type} (hav : X → X → X → X → X) (ghz : X → X) (toNs' : T' → Int) (toNs : T → Int) (g : T → T')
    (q : Cml X V A T) (q' : Cml X V A T') (name : String) (ch : Channel X V A T)
    (hq : q'.cmlId = q.cmlId ∧ q'.siteALatitude = q.siteALatitude ∧ q'.siteBLatitude = q.siteBLatitude ∧
      q'.siteALongitude = q.siteALongitude ∧ q'.siteBLongitude = q.siteBLongitude)
    (h : ∀ times, ch.time = some times → ∀ t ∈ times, toNs' (g t) = toNs t) :
    channelDs hav ghz toNs' q' name ⟨ch.tx, ch.rx, ch.time.map (·.map g), ch.frequency, ch.polarization⟩ = channelDs hav ghz toNs q name ch := by
  obtain ⟨h1, h2, h3, h4, h5⟩ := hq
  unfold channelDs
  rw [h1, h2, h3, h4, h5]
  cases ht : ch.time with
  | none => rfl
  | some times =>
    have e : (times.map g).map toNs' = times.map toNs := by
      rw [List.map_map]
      exact List.map_congr_left fun t hm => h times ht t hm
    simp only [Option.map_some, member, bind, Except.bind, e, List.length_map]

theorem mapM_map_congr {α β γ : Type} (f : α → β) (g : β → Except Err γ) (k : α → Except Err γ) (l : List α) (h : ∀ x ∈ l, g (f x) = k x) :
    (l.map f).mapM g = l.mapM k := by
  induction l with
  | nil => rfl
  | cons x l ih =>
    rw [List.map_cons, List.mapM_cons, List.mapM_cons, h x (by simp), ih fun y hy => h y (by simp [hy])]

/-- **C152** Reading a file whose times are whole seconds (from 1824 to 2115): the result, or the exception, is the same as with exact
conversion of the times, so that samples of different channels are aligned if and only if their times are equal. -/
theorem C152_file {X V A : Type} [DecidableEq X] [DecidableEq A] (hav : X → X → X → X → X) (ghz : X → X) (nan : V)
    (file : List (String × Cml X V A ℤ))
    (h : ∀ p ∈ file, ∀ c ∈ p.2.channels, ∀ times, c.2.time = some times → ∀ t ∈ times, |t| ≤ 4611686018) :
    readWith hav ghz (timeNs (R := binary64 (K := K))) nan (withTimes (fun t => PyFloat.ofInt t) file) =
      readWith hav ghz (fun t => t * 1000000000) nan file := by
  cases file with
  | nil => rfl
  | cons p rest =>
    show List.mapM _ (List.map _ (p :: rest)) = List.mapM _ (p :: rest)
    apply mapM_map_congr
    intro q hq
    unfold cmlDs
    congr 1
    apply mapM_map_congr
    intro c hc
    apply channelDs_withTimes
    · exact ⟨rfl, rfl, rfl, rfl, rfl⟩
    · intro times ht t hm
      exact C152_whole_seconds t (h q hq c hc times ht t hm)

end

/-! ### Examples -/

section examples

example : timeNs (PyFloat.ofInt 1500000000 : RFl (binary64 (K := ℚ))) = 1500000000000000000 :=
  C152_whole_seconds 1500000000 (by norm_num)

/-- two channels, one of them without the second sample -/
def exTimesFile : List (String × Cml ℚ Nat String ℤ) :=
  [("a", ⟨some "a", some 1, some 2, some 3, some 4,
    [("1", ⟨some [5, 6, 7], some [8, 9, 10], some [1500000000, 1500000060, 1500000120], some 20000000000, some "H"⟩),
     ("2", ⟨some [5, 7], some [8, 10], some [1500000000, 1500000120], some 20000000000, some "V"⟩)]⟩)]

example : (readWith (fun _ _ _ _ => 0) (· / 1000000000) (timeNs (R := binary64 (K := ℚ))) 0
      (withTimes (fun t => PyFloat.ofInt t) exTimesFile)).map (fun l => l.map fun d => (d.time, d.tsl)) =
    .ok [([1500000000000000000, 1500000060000000000, 1500000120000000000], [[5, 6, 7], [5, 0, 7]])] := by
  rw [C152_file _ _ _ exTimesFile (by decide)]
  decide +kernel

end examples

end Verif.Props
